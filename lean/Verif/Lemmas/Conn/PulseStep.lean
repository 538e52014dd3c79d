import Verif.Lemmas.Conn.PulseInv

/- The steps of sessions with answered heartbeats keep the invariant. -/

set_option autoImplicit false
set_option linter.unusedSimpArgs false

namespace M3.Conn.Pulse

open Spec
open Calm (before after full kindOf kindOf_ok entry answer okFree okDat okPkt okPktd okUpd Opens stage_active info_keep expected)

/-- The goroutine that prepares a heartbeat changes only what concerns no other. -/
theorem Inv.prepare {c cm : Nat} {sh sh' : Shared} {tr : List Rec} {ss : List G} (h : Inv c cm 0 sh tr ss) {i : Nat}
    {s : G} (hs : ss[i]? = some s) (hp : prep s = true) (s' : G) (x : Rec) (ho : Opens sh') (he : ∀ e, x.ev.op ≠ .sendErr e) (hle : x.ev.op ≠ .waitLeave)
    (h1 : sh'.st = sh.st) (h2 : sh'.locked = sh.locked) (h3 : sh'.handed = sh.handed) (hr : receives [x] = [])
    (h' : (prep s' = true ∧ x.ev.op ≠ .setBeat) ∨ (s' = .pulse ∧ x.ev.op = .setBeat)) :
    Inv c cm 0 sh' (tr ++ [x]) (ss.set i s' ++ []) := by
  obtain ⟨hz, hn⟩ := h.preparing hs hp
  have hs0 : tokN s = 0 ∧ monN s = 0 ∧ mainN s = 0 ∧ beatN s = 1 ∧ pulseN s = 0 ∧ ackN s = 0 ∧ napN s = 0 ∧ isOpening s = false := by
    cases s <;> first | exact ⟨rfl, rfl, rfl, rfl, rfl, rfl, rfl, rfl⟩ | cases hp
  obtain ⟨p1, p2, p3, p4, p5, p6, p7, p8⟩ := hs0
  have hr' : receives (tr ++ [x]) = receives tr := by rw [Flow.receives_append, hr, List.append_nil]
  have ha : aw (tr ++ [x]) = if x.ev.op = .setBeat then 1 else 0 := by
    unfold aw at hz ⊢
    rw [awaiting_append]
    obtain ⟨j, g, o, r⟩ := x
    cases o with
    | setBeat => rfl
    | read n =>
      cases r with
      | none => simp at hz ⊢; exact hz
      | some b => simp [receives, received?] at hr
    | _ => simp at hz ⊢; exact hz
  have hk : stores (tr ++ [x]) + answers (receives tr) + aw tr = stores tr + answers (receives (tr ++ [x])) + aw (tr ++ [x]) := by
    rw [stores_append, hr', ha, hz]
    omega
  have hf : ∀ (j : Nat) (t : G), j ≠ i → ss[j]? = some t → Fact sh tr t → Fact sh' (tr ++ [x]) t := fun j t _ ht hf =>
    hf.same h1 h2 h3 hr' (.inl (hn t (List.mem_of_getElem? ht)))
  rcases h' with ⟨hp', hx⟩ | ⟨rfl, hx⟩
  · rw [if_neg hx] at ha
    have hs1 : tokN s' = 0 ∧ monN s' = 0 ∧ mainN s' = 0 ∧ beatN s' = 1 ∧ pulseN s' = 0 ∧ ackN s' = 0 ∧ napN s' = 0 ∧ Fact sh' (tr ++ [x]) s' := by
      cases s' <;> first | exact ⟨rfl, rfl, rfl, rfl, rfl, rfl, rfl, trivial⟩ | cases hp'
    obtain ⟨q1, q2, q3, q4, q5, q6, q7, q8⟩ := hs1
    exact h.step hs s' [] x ho he (by rw [p1, q1]; rfl) (by rw [p2, q2]; rfl) (by rw [p3, q3]; rfl) (by rw [p4, q4]; rfl)
      (by rw [hz, ha, p5, p6, q5, q6]; rfl) (by rw [p7, q7]; exact Nat.le_refl _) (fun h => absurd h hle) hk hf q8
      (by intro t h; cases h) (by intro h; rw [p8] at h; cases h)
  · rw [if_pos hx] at ha
    exact h.step hs .pulse [] x ho he (by rw [p1]; rfl) (by rw [p2]; rfl) (by rw [p3]; rfl) (by rw [p4]; rfl)
      (by rw [hz, ha, p5, p6]; rfl) (by rw [p7]; exact Nat.le_refl _) (fun h => absurd h hle) hk hf trivial
      (by intro t h; cases h) (by intro h; rw [p8] at h; cases h)

theorem tot_le {f g : G → Nat} (h : ∀ t, f t ≤ g t) (l : List G) : tot f l ≤ tot g l := by
  induction l with
  | nil => exact Nat.le_refl _
  | cons a l ih =>
    have := h a
    rw [tot_cons, tot_cons]; omega

theorem run_inv {E : Env} {m : Mode} {sh sh' : Shared} {tr : List Rec} {ss : List G} {i : Nat} {g : Gor} {s : G} {o : Op} {r : Resp o}
    (h : Inv 1 (if sh.handed then 0 else 1) 0 sh tr ss) (hs : ss[i]? = some s) (hfit : Fits g s) (hok : ok E s o) (hx : Exec sh o r sh')
    (hc : Clean m sh tr) (hc' : Clean m sh' (tr ++ [⟨i, g, o, r⟩])) :
    Inv 1 (if sh'.handed then 0 else 1) 0 sh' (tr ++ [⟨i, g, o, r⟩]) (ss.set i (next s o r) ++ (spawned o).map born) := by
  have hf := h.fact i s hs
  have ho := h.opens
  have hcalm := hc'.calm ⟨i, g, o, r⟩ (by simp)
  have huser := hc'.user ⟨i, g, o, r⟩ (by simp)
  have hu : ∀ b, s ≠ .off → (s ≠ .free → s ≠ .close → ofUser g = b → b = false) := by
    intro b h0 h1 h2 h3
    have := (fits_user hfit h0).1
    cases hb : ofUser g with
    | false => rw [← h3, hb]
    | true => rcases this.mp hb with h | h <;> contradiction
  cases s with
  | off => exact hf.elim
  | over => cases hok
  | close => exact (huser ((fits_user hfit (by simp)).2 rfl)).elim
  | free =>
    cases o <;> first | (cases hok; done) | skip
    all_goals
      have hsh : sh'.st = sh.st ∧ sh'.locked = sh.locked ∧ sh'.handed = sh.handed ∧ Opens sh' := by
        cases hx <;> exact ⟨rfl, rfl, rfl, ho.1, ho.2, ho.3, ho.4, ho.5⟩
      rw [hsh.2.2.1]
      exact h.idle hs _ _ _ hsh.2.2.2 (by intro e h; cases h) rfl (by intro h; cases h) rfl rfl rfl rfl rfl (Nat.le_refl _) hsh.1 hsh.2.1 hsh.2.2.1 trivial
        (by intro t h; cases h) (by intro h; cases h)
  | nap =>
    cases o <;> first | (cases hok; done) | skip
    · cases hx
      exact h.idle hs .nap [] ⟨i, g, .waitEnter, ()⟩ ⟨ho.1, ho.2, ho.3, ho.4, ho.5⟩ (by intro e h; cases h) rfl (by intro h; cases h) rfl rfl rfl rfl rfl
        (Nat.le_refl _) rfl rfl rfl trivial (by intro t h; cases h) (by intro h; cases h)
    · cases hx
      have hz : tot napN ss = 1 := by
        have h1 := tot_ge napN hs
        have h2 : tot napN ss ≤ tot beatN ss := tot_le (fun t => by cases t <;> simp [napN, beatN]) ss
        have := h.beat
        simp only [napN] at h1
        omega
      refine h.step hs .beat [] ⟨i, g, .waitLeave, ()⟩ ⟨ho.1, ho.2, ho.3, ho.4, ho.5⟩ (by intro e h; cases h) (Nat.add_comm _ _) rfl rfl rfl ?_
        (Nat.zero_le _) (fun _ => by rw [hz]; rfl) (count_plain rfl) ?_ trivial (by intro t h; cases h) (by intro h; cases h)
      · rw [aw_plain rfl]; rfl
      · intro j t _ _ hf
        exact hf.same rfl rfl rfl (receives_plain rfl) (.inr ⟨noted_plain rfl, drawn_plain rfl⟩)
  | beat =>
    have hu := hcalm (hu _ (by simp) (by simp) (by simp) rfl)
    cases o <;> first | (cases hok; done) | skip
    case rand =>
      cases hx
      · exact h.prepare hs rfl _ ⟨i, g, .rand, some _⟩ ⟨ho.1, ho.2, ho.3, ho.4, ho.5⟩ (by intro e h; cases h) (by intro h; cases h) rfl rfl rfl rfl (.inl ⟨rfl, by intro h; cases h⟩)
      · cases hu
    case sleepSelect =>
      cases hx with
      | sleepCtx h1 => rw [show sh.ctxDone = false from hc.ctx] at h1; cases h1
      | sleepElapsed =>
        exact h.prepare hs rfl _ ⟨i, g, .sleepSelect, false⟩ ho (by intro e h; cases h) (by intro h; cases h) rfl rfl rfl rfl (.inl ⟨rfl, by intro h; cases h⟩)
  | drew d =>
    have hu := hcalm (hu _ (by simp) (by simp) (by simp) rfl)
    cases o <;> first | (cases hok; done) | skip
    case info =>
      cases hx
      exact h.prepare hs rfl _ ⟨i, g, .info, _⟩ ho (by intro e h; cases h) (by intro h; cases h) rfl rfl rfl rfl (.inl ⟨rfl, by intro h; cases h⟩)
    case write b j =>
      cases hx
      · exact h.prepare hs rfl _ ⟨i, g, .write b j, some _⟩ ho (by intro e h; cases h) (by intro h; cases h) rfl rfl rfl rfl (.inl ⟨rfl, by intro h; cases h⟩)
      · cases hu
  | posted d =>
    obtain rfl : o = .setBeat := hok
    cases hx
    exact h.prepare hs rfl _ ⟨i, g, .setBeat, ()⟩ ⟨ho.1, ho.2, ho.3, ho.4, ho.5⟩ (by intro e h; cases h) (by intro h; cases h) rfl rfl rfl rfl (.inr ⟨rfl, rfl⟩)
  | pulse =>
    have hu := hcalm (hu _ (by simp) (by simp) (by simp) rfl)
    obtain rfl : o = .ackSelect := hok
    cases hx with
    | ackCtx h1 => rw [show sh.ctxDone = false from hc.ctx] at h1; cases h1
    | ackClosed h1 => rw [ho.ack] at h1; cases h1
    | ackTimer => simp [Ev.calm] at hu
  | boot =>
    obtain rfl : o = .spawn .heartbeat := hok
    cases hx
    exact h.idle hs .wait [.nap] ⟨i, g, .spawn .heartbeat, ()⟩ ho (by intro e h; cases h) rfl (by intro h; cases h) rfl rfl rfl rfl rfl (Nat.le_refl _) rfl rfl rfl trivial
      (by intro t h; rw [List.mem_singleton.mp h]; trivial) (by intro h; cases h)
  | main =>
    have hu := hcalm (hu _ (by simp) (by simp) (by simp) rfl)
    obtain rfl : o = .estSelect := hok
    cases hx with
    | estClosedRecv h1 => rw [ho.est] at h1; cases h1
    | estTimeout => simp [Ev.calm] at hu
  | opened =>
    obtain rfl : o = .opened .conn := hok
    cases hx
    exact h.idle hs _ _ _ ho (by intro e h; cases h) rfl (by intro h; cases h) rfl rfl rfl rfl rfl (Nat.le_refl _) rfl rfl rfl trivial (by intro t h; cases h) (fun _ => .inr rfl)
  | dat =>
    have hn : 3 ≤ (receives tr).length := hf
    have ha : sh.st = .active := by
      rcases h.state with h | h <;> rw [h] <;> exact stage_active (by omega)
    cases o <;> first | (cases hok; done) | skip
    · cases hx
      simp only [next, G.seen, ha, if_true]
      exact h.idle hs _ _ _ ho (by intro e h; cases h) rfl (by intro h; cases h) rfl rfl rfl rfl rfl (Nat.le_refl _) rfl rfl rfl hf (by intro t h; cases h) (by intro h; cases h)
    · cases hx with
      | sendData h1 h2 =>
        exact h.idle hs _ _ _ ⟨ho.1, ho.2, ho.3, ho.4, ho.5⟩ (by intro e h; cases h) rfl (by intro h; cases h) rfl rfl rfl rfl rfl (Nat.le_refl _) rfl rfl rfl trivial
          (by intro t h; cases h) (by intro h; cases h)
      | sendDataCtx h1 => rw [show sh.ctxDone = false from hc.ctx] at h1; cases h1
  | wait =>
    obtain rfl : o = .monSelect := hok
    cases hx with
    | monCtx h1 => rw [show sh.ctxDone = false from hc.ctx] at h1; cases h1
  | start =>
    obtain rfl : o = .sendState .down := hok
    cases hx
  | pkt k =>
    have hu := hcalm (hu _ (by simp) (by simp) (by simp) rfl)
    have hf' := hf
    obtain ⟨⟨hb, ha, hd⟩, h1, h2, h3⟩ := hf'
    cases o <;> first | (cases hok; done) | skip
    case state =>
      cases hx
      have : sh.st = before k := by rw [h1, hb]
      simp only [next, G.seen, this, if_true]
      exact h.idle hs _ _ _ ho (by intro e h; cases h) rfl (by intro h; cases h) rfl rfl rfl rfl rfl (Nat.le_refl _) rfl rfl rfl hf (by intro t h; cases h) (by intro h; cases h)
    case sendState s => cases hx
    case ctxDone =>
      cases hx
      have : sh.ctxDone = false := hc.ctx
      simp only [next, this, Bool.false_eq_true, if_false]
      exact h.idle hs _ _ _ ho (by intro e h; cases h) rfl (by intro h; cases h) rfl rfl rfl rfl rfl (Nat.le_refl _) rfl rfl rfl hf (by intro t h; cases h) (by intro h; cases h)
    case info =>
      cases hx
      exact h.idle hs _ _ _ ho (by intro e h; cases h) rfl (by intro h; cases h) rfl rfl rfl rfl rfl (Nat.le_refl _) rfl rfl rfl hf (by intro t h; cases h) (by intro h; cases h)
    case write =>
      cases hx
      · exact h.idle hs _ _ _ ho (by intro e h; cases h) rfl (by intro h; cases h) rfl rfl rfl rfl rfl (Nat.le_refl _) rfl rfl rfl ⟨⟨hb, ha⟩, h1, h2, h3⟩ (by intro t h; cases h) (by intro h; cases h)
      · cases hu
    case spawn g' =>
      obtain ⟨rfl, m', rfl, hm⟩ := hok
      cases hx
      have := hd rfl
      refine h.idle hs _ _ _ ho (by intro e h; cases h) rfl (by intro h; cases h) ?_ ?_ ?_ ?_ ?_ ?_ rfl rfl rfl hf ?_ (by intro h; cases h) <;>
        simp [spawned, born, hm, next, G.passed, tokN, monN, mainN, beatN, pulseN, ackN, napN, tot, G.tok, G.mon, Fact]
      omega
  | pktd k =>
    have hf' := hf
    obtain ⟨⟨hb, ha⟩, h1, h2, h3⟩ := hf'
    cases o <;> first | (cases hok; done) | skip
    case state =>
      cases hx
      have : sh.st = before k := by rw [h1, hb]
      simp only [next, G.seen, this, if_true]
      exact h.idle hs _ _ _ ho (by intro e h; cases h) rfl (by intro h; cases h) rfl rfl rfl rfl rfl (Nat.le_refl _) rfl rfl rfl hf (by intro t h; cases h) (by intro h; cases h)
    case sendState s => cases hx
  | ack d =>
    have hf' := hf
    obtain ⟨⟨h0, hnt, hdr⟩, h1, h2, h3⟩ := hf'
    cases o <;> first | (cases hok; done) | skip
    case state =>
      cases hx
      have : sh.st = .active := by rw [h1]; exact stage_active (by omega)
      simp only [next, G.seen, this, if_true]
      exact h.idle hs _ _ _ ho (by intro e h; cases h) rfl (by intro h; cases h) rfl rfl rfl rfl rfl (Nat.le_refl _) rfl rfl rfl hf (by intro t h; cases h) (by intro h; cases h)
    case ctxDone =>
      cases hx
      have : sh.ctxDone = false := hc.ctx
      simp only [next, this, Bool.false_eq_true, if_false]
      exact h.idle hs _ _ _ ho (by intro e h; cases h) rfl (by intro h; cases h) rfl rfl rfl rfl rfl (Nat.le_refl _) rfl rfl rfl hf (by intro t h; cases h) (by intro h; cases h)
    case getBeat =>
      have hb := hc'.cmp tr ⟨i, g, .getBeat, r⟩ [] r rfl rfl hnt
      rw [hdr] at hb
      obtain rfl : d = r := Option.some.inj hb
      cases hx
      simp only [next, G.compared, if_true]
      exact h.idle hs .ackc _ _ ho (by intro e h; cases h) rfl (by intro h; cases h) rfl rfl rfl rfl rfl (Nat.le_refl _) rfl rfl rfl ⟨h0, h1, h2, h3⟩
        (by intro t h; cases h) (by intro h; cases h)
  | ackc =>
    obtain rfl : o = .sendAck := hok
    cases hx
  | got s =>
    obtain rfl : o = .lock := hok
    cases hx
    obtain ⟨h1, h2, h3, h4⟩ := hf
    exact h.move1 hs (.lckd s) ⟨i, g, .lock, ()⟩ ⟨ho.1, ho.2, ho.3, ho.4, ho.5⟩ (by intro e h; cases h) rfl rfl rfl rfl (by intro h; cases h) rfl ⟨h1, h2, rfl, h4⟩
  | lckd s =>
    obtain rfl : o = .getSt := hok
    cases hx
    obtain ⟨h1, h2, h3, h4⟩ := hf
    exact h.move1 hs (.prev s sh.st) ⟨i, g, .getSt, sh.st⟩ ho (by intro e h; cases h) rfl rfl rfl rfl (by intro h; cases h) rfl ⟨h1, h2, h3, h4, rfl⟩
  | prev s p =>
    obtain rfl : o = .putSt s := hok
    cases hx
    obtain ⟨h1, h2, h3, h4, h5⟩ := hf
    refine h.move1 hs (.upd s p) ⟨i, g, .putSt s, ()⟩ ⟨ho.1, ho.2, ho.3, ho.4, ho.5⟩ (by intro e h; cases h) rfl rfl rfl rfl (by intro h; cases h) rfl
      ⟨h1, rfl, h3, ?_, ?_⟩
    · show sh.handed = _
      rw [h4, h5, h2]
      match (receives tr).length with
      | 0 => rfl
      | 1 => rfl
      | 2 => rfl
      | n + 3 => simp [stageAt]
    · rw [h1, h5, h2]
      match (receives tr).length with
      | 0 => intro h; cases h
      | 1 => intro h; cases h
      | 2 => intro h; cases h
      | n + 3 => intro _; rfl
  | upd s p =>
    have hu := hcalm (hu _ (by simp) (by simp) (by simp) rfl)
    obtain ⟨h1, h2, h3, h4, h5⟩ := hf
    cases o <;> first | (cases hok; done) | skip
    case sendEst => cases hx
    case unlock =>
      cases hx
      refine h.move1 hs .ready ⟨i, g, .unlock, ()⟩ ⟨ho.1, ho.2, ho.3, ho.4, ho.5⟩ (by intro e h; cases h) rfl rfl rfl rfl (by intro h; cases h) rfl
        ⟨h2.trans h1, rfl, ?_⟩
      have hok : s = .active → p = .active := hok.2
      show sh.handed = _
      rw [h4]
      have : p = .active ↔ 2 ≤ (receives tr).length := by
        rw [show p = .active ↔ s = .active from ⟨h5, hok⟩, h1]
        match (receives tr).length with
        | 0 => simp [stageAt]
        | 1 => simp [stageAt]
        | n + 2 => simp [stageAt]
      simpa using this
    case broadcast =>
      cases hx
      exact h.idle hs _ _ _ ⟨ho.1, ho.2, ho.3, ho.4, ho.5⟩ (by intro e h; cases h) rfl (by intro h; cases h) rfl rfl rfl rfl rfl (Nat.le_refl _) rfl rfl rfl ⟨h1, h2, h3, h4, h5⟩
        (by intro t h; cases h) (by intro h; cases h)
    case info =>
      cases hx
      exact h.idle hs _ _ _ ho (by intro e h; cases h) rfl (by intro h; cases h) rfl rfl rfl rfl rfl (Nat.le_refl _) rfl rfl rfl ⟨h1, h2, h3, h4, h5⟩
        (by intro t h; cases h) (by intro h; cases h)
    case write b' _ =>
      have hb : entry E s = some b' := hok
      have hsa : s ≠ .active := by rintro rfl; cases hb
      cases hx
      · exact h.idle hs _ _ _ ho (by intro e h; cases h) rfl (by intro h; cases h) rfl rfl rfl rfl rfl (Nat.le_refl _) rfl rfl rfl
          ⟨h1, h2, h3, by rw [h4]; exact decide_eq_false fun h => hsa (h5 h), hsa⟩ (by intro t h; cases h) (by intro h; cases h)
      · cases hu
  | updd s p =>
    obtain rfl : o = .unlock := hok
    obtain ⟨h1, h2, h3, h4, h5⟩ := hf
    cases hx
    refine h.move1 hs .ready ⟨i, g, .unlock, ()⟩ ⟨ho.1, ho.2, ho.3, ho.4, ho.5⟩ (by intro e h; cases h) rfl rfl rfl rfl (by intro h; cases h) rfl
      ⟨h2.trans h1, rfl, ?_⟩
    show sh.handed = _
    rw [h4]
    refine (decide_eq_false fun h => h5 ?_).symm
    rw [h1]; exact stage_active h
  | ready =>
    have hu := hcalm (hu _ (by simp) (by simp) (by simp) rfl)
    obtain rfl : o = .read 1500 := hok
    obtain ⟨h1, h2, h3⟩ := hf
    have key : ∀ (sh' : Shared) (d : Bytes), Clean m sh' (tr ++ [⟨i, g, .read 1500, some d⟩]) → Opens sh' → sh'.st = sh.st → sh'.locked = sh.locked → sh'.handed = sh.handed →
        Inv 1 (if sh'.handed then 0 else 1) 0 sh' (tr ++ [⟨i, g, .read 1500, some d⟩])
          (ss.set i (next .ready (.read 1500) (some d)) ++ (spawned (.read 1500)).map born) := by
      intro sh' d hc' ho' e1 e2 e3
      have hr : receives (tr ++ [⟨i, g, .read 1500, some d⟩]) = receives tr ++ [d] := by rw [Flow.receives_append]; rfl
      have hnt : noted (tr ++ [⟨i, g, .read 1500, some d⟩]) = noted tr := by rw [noted_append]; simp
      have hdr : drawn (tr ++ [⟨i, g, .read 1500, some d⟩]) = drawn tr := drawn_append_none fun _ h => by cases h
      have hst : stores (tr ++ [⟨i, g, .read 1500, some d⟩]) = stores tr := by rw [stores_append]; rfl
      have haw : awaiting (tr ++ [⟨i, g, .read 1500, some d⟩]) = (awaiting tr && decide (meaning d ≠ some .heartbeatAck)) := awaiting_append _ _
      have hin := hc'.acks tr ⟨i, g, .read 1500, some d⟩ [] 1500 d rfl rfl
      have hall : aw tr = ackN (.raw d) + aw (tr ++ [⟨i, g, .read 1500, some d⟩]) := by
        unfold aw
        rw [haw, ackN]
        by_cases hk : meaning d = some .heartbeatAck
        · simp [hk, (hin hk).1]
        · simp [hk]
      refine h.move (sh' := sh') hs (.raw d) [] ⟨i, g, .read 1500, some d⟩ ho' (by intro e h; cases h) _ rfl (by intro h; cases h) rfl rfl (by rw [e3]; exact Nat.zero_add _) rfl ?_ ?_ ?_ (by intro t h; cases h)
      · show 0 + aw tr = _
        rw [hall]; simp [tot]
      · rw [hst, hr, hall, answers, answers, List.countP_append, List.countP_cons, List.countP_nil, ackN]
        simp only [decide_eq_true_eq]
        omega
      · refine ⟨⟨⟨_, hr⟩, fun hk => ?_⟩, ?_, by rw [e2, h2], ?_⟩
        · obtain ⟨ha, d', hd, hd'⟩ := hin hk
          rw [hnt, hdr]
          exact ⟨awaiting_noted ha, d', hd, hd'⟩
        · rw [e1, h1, hr]; simp
        · rw [e3, h3, hr]; simp
    cases hx with
    | read => exact key _ _ hc' ⟨ho.1, ho.2, ho.3, ho.4, ho.5⟩ rfl rfl rfl
    | readPart => exact key _ _ hc' ⟨ho.1, ho.2, ho.3, ho.4, ho.5⟩ rfl rfl rfl
    | readFail => cases hu
  | raw b =>
    obtain rfl : o = .spawn (.packet b) := hok
    cases hx
    obtain ⟨⟨⟨rs, hr⟩, hk⟩, h1, h2, h3⟩ := hf
    have hlen : (receives tr).length = rs.length + 1 := by rw [hr]; simp
    have hr' : receives (tr ++ [⟨i, g, .spawn (.packet b), ()⟩]) = receives tr := receives_plain rfl
    have same : ∀ t, Fact sh tr t → Fact sh (tr ++ [⟨i, g, .spawn (.packet b), ()⟩]) t := fun t hf =>
      hf.same rfl rfl rfl hr' (.inr ⟨noted_plain rfl, drawn_plain rfl⟩)
    rcases hc.last hr with hl | ⟨hl, hm⟩
    · obtain ⟨k, hkk, hb, ha, hd⟩ := expected hl
      have hm : meaning b ≠ some .heartbeatAck := by
        intro hm; simp only [kindOf, hm] at hkk; cases hkk
      have hh := h.move (cm' := if sh.handed then 0 else 1) hs .wait [.pkt k] ⟨i, g, .spawn (.packet b), ()⟩ ho (by intro e h; cases h) 1 rfl (by intro h; cases h) rfl rfl (Nat.zero_add _) rfl
        (by rw [aw_plain rfl]; simp [ackN, tot, hm]) (count_plain rfl) trivial (by
          intro t ht
          rw [List.mem_singleton.mp ht]
          refine same _ ⟨⟨?_, ?_, ?_⟩, h1, h2, h3⟩
          · rw [hb, hlen]; rfl
          · rw [ha, hlen]
          · intro h'; have := hd h'; omega)
      simpa [spawned, born, hkk, next, G.passed] using hh
    · obtain ⟨hnt, d, hd, hd'⟩ := hk hm
      have hkk : kindOf b = none := by simp only [kindOf, hm]
      have hh := h.move (cm' := if sh.handed then 0 else 1) hs .wait [.ack d] ⟨i, g, .spawn (.packet b), ()⟩ ho (by intro e h; cases h) 1 rfl (by intro h; cases h) rfl rfl (Nat.zero_add _) rfl
        (by rw [aw_plain rfl]; simp [ackN, tot, hm]) (count_plain rfl) trivial (by
          intro t ht
          rw [List.mem_singleton.mp ht]
          exact same _ ⟨⟨by omega, hnt, hd⟩, h1, h2, h3⟩)
      simpa [spawned, born, hkk, hd', next, G.passed] using hh

theorem heard_stage (n : Nat) : G.heard .wait (.state (stageAt n)) = .got (stageAt n) := by
  match n with
  | 0 => rfl
  | 1 => rfl
  | n + 2 => rfl

theorem sync_inv {E : Env} {sh sh' : Shared} {tr : List Rec} {ss : List G} {i j : Nat} {gi gj : Gor} {si sj : G} {oi oj : Op}
    {ri : Resp oi} {rj : Resp oj} (h : Inv 1 (if sh.handed then 0 else 1) 0 sh tr ss) (hij : i ≠ j) (hsi : ss[i]? = some si)
    (hsj : ss[j]? = some sj) (hoi : ok E si oi) (hoj : ok E sj oj) (hx : Sync sh oi ri oj rj sh') :
    Inv 1 (if sh'.handed then 0 else 1) 0 sh' (tr ++ [⟨i, gi, oi, ri⟩, ⟨j, gj, oj, rj⟩]) ((ss.set i (next si oi ri)).set j (next sj oj rj)) := by
  have hfi := h.fact i si hsi
  have hfj := h.fact j sj hsj
  have ho := h.opens
  have hj' : ∀ s', (ss.set i s' ++ [])[j]? = some sj := by
    intro s'; rw [List.append_nil, getElem?_set_ne' _ hij]; exact hsj
  have same : ∀ (tr : List Rec) (x : Rec) (t : G), plain x.ev.op = true → Fact sh tr t → Fact sh (tr ++ [x]) t := fun tr x t hp hf =>
    hf.same rfl rfl rfl (receives_plain hp) (.inr ⟨noted_plain hp, drawn_plain hp⟩)
  cases hx with
  | err => cases si <;> first | (cases hoi; done) | exact hfi.elim
  | ack _ =>
    cases si <;> first | (cases hoi; done) | exact hfi.elim | skip
    cases sj <;> first | (cases hoj; done) | exact hfj.elim | skip
    obtain ⟨h0, h1, h2, h3⟩ := hfi
    have a := h.step (sh' := sh) (c' := 1) (cm' := if sh.handed then 0 else 1) (cp' := 1) hsi (.pktd .heartbeatAck) [] ⟨i, gi, .sendAck, ()⟩ ho (by intro e h; cases h)
      rfl rfl rfl rfl (by rw [aw_plain rfl]; simp only [pulseN, ackN, tot_nil]; omega) (Nat.le_refl _) (fun h => by cases h) (count_plain rfl)
      (fun _ t _ _ hf => same _ _ t rfl hf) (same _ _ _ rfl ⟨⟨?_, ?_⟩, h1, h2, h3⟩) (by intro t h; cases h) (by intro h; cases h)
    · have b := a.step (sh' := sh) (c' := 1) (cm' := if sh.handed then 0 else 1) (cp' := 0) (hj' _) .beat [] ⟨j, gj, .ackSelect, .ack⟩ ho (by intro e h; cases h)
        rfl rfl rfl rfl (by rw [aw_plain (x := ⟨j, gj, .ackSelect, .ack⟩) rfl]; simp only [pulseN, ackN, tot_nil]; omega) (Nat.le_refl _) (fun h => by cases h) (count_plain rfl)
        (fun _ t _ _ hf => same _ _ t rfl hf) trivial (by intro t h; cases h) (by intro h; cases h)
      simpa [next, G.told, G.heardAck] using b
    · exact (stage_active (by omega)).symm
    · exact (stage_active (by omega)).symm
  | est _ =>
    cases sj <;> first | (cases hoj; done) | exact hfj.elim | skip
    cases si <;> first | (cases hoi; done) | exact hfi.elim | skip
    rename_i s p
    obtain ⟨rfl, hp⟩ : s = .active ∧ p ≠ .active := hoi
    obtain ⟨h1, h2, h3, h4, h5⟩ := hfi
    have hh : sh.handed = false := by rw [h4]; simp [hp]
    rw [hh] at h
    have a := h.move1 (sh' := { sh with handed := true }) hsi (.upd .active .active) ⟨i, gi, .sendEst, ()⟩ ⟨ho.1, ho.2, ho.3, ho.4, ho.5⟩
      (by intro e h; cases h) rfl rfl rfl rfl (by intro h; cases h) rfl ⟨h1, h2, h3, by simp, fun _ => rfl⟩
    have b := a.step (sh' := { sh with handed := true }) (c' := 1) (cm' := 0) (cp' := 0) (hj' _) .opened [] ⟨j, gj, .estSelect, .ok⟩ ⟨ho.1, ho.2, ho.3, ho.4, ho.5⟩
      (by intro e h; cases h) rfl rfl rfl rfl (by rw [aw_plain (x := ⟨j, gj, .estSelect, .ok⟩) rfl]; rfl) (Nat.le_refl _) (fun h => by cases h) (count_plain rfl) (by
        intro k t _ _ hf
        exact hf.same rfl rfl rfl (receives_plain rfl) (.inr ⟨noted_plain rfl, drawn_plain rfl⟩)) trivial (by intro t h; cases h) (fun _ => .inl rfl)
    simpa [next, G.sendEst, G.est] using b
  | state =>
    cases sj <;> first | (cases hoj; done) | exact hfj.elim | skip
    rename_i s
    have key : si.tok = true ∧ si.mon = false ∧ ackN si = 0 ∧ next si (.sendState s) () = .over ∧ Fact sh tr (.got s) := by
      cases si <;> first | (cases hoi; done) | exact hfi.elim | skip
      · cases hoi
        obtain ⟨h1, h2, h3, h4⟩ := hfi
        refine ⟨rfl, rfl, rfl, rfl, ?_, ?_, h3, ?_⟩ <;> rw [h1]
        · rfl
        · exact h2
        · exact h4
      · rename_i k
        obtain rfl : s = after k := hoi.1
        obtain ⟨⟨hb, ha, hd⟩, h1, h2, h3⟩ := hfi
        exact ⟨rfl, rfl, rfl, rfl, ha, h1, h2, h3⟩
      · rename_i k
        obtain rfl : s = after k := hoi
        obtain ⟨⟨hb, ha⟩, h1, h2, h3⟩ := hfi
        exact ⟨rfl, rfl, rfl, rfl, ha, h1, h2, h3⟩
    obtain ⟨k1, k2, k0, k3, k4⟩ := key
    rw [k3]
    have k5 : next .wait .monSelect (.state s) = .got s := by
      have : s = stageAt (receives tr).length := k4.1
      rw [this]; exact heard_stage _
    rw [k5]
    have a := h.move (sh' := sh) (cm' := if sh.handed then 0 else 1) hsi .over [] ⟨i, gi, .sendState s, ()⟩ ho (by intro e h; cases h) 0 k1 (by intro h; cases h) rfl
      (by rw [monN, monN, k2]; rfl) (Nat.zero_add _) rfl (by rw [aw_plain rfl, k0]; simp [ackN, tot]) (count_plain rfl) trivial (by intro t h; cases h)
    have b := a.step (sh' := sh) (c' := 1) (cm' := if sh.handed then 0 else 1) (cp' := 0) (hj' _) (.got s) [] ⟨j, gj, .monSelect, .state s⟩ ho
      (by intro e h; cases h) rfl rfl rfl rfl (by rw [aw_plain (x := ⟨j, gj, .monSelect, .state s⟩) rfl]; rfl) (Nat.le_refl _) (fun h => by cases h) (count_plain rfl)
      (fun _ t _ _ hf => same _ _ t rfl hf) (same _ _ _ rfl (same _ _ _ rfl k4)) (by intro t h; cases h) (by intro h; cases h)
    simpa using b

theorem Inv.like {c cm cp : Nat} {sh sh' : Shared} {tr : List Rec} {ss : List G} (h : Inv c cm cp sh tr ss) (ho : Opens sh')
    (h1 : sh'.st = sh.st) (h2 : sh'.locked = sh.locked) (h3 : sh'.handed = sh.handed) : Inv c cm cp sh' tr ss :=
  ⟨ho, h.quiet, fun i s hs => (h.fact i s hs).same h1 h2 h3 rfl (.inr ⟨rfl, rfl⟩), h.tok, h.mon, h.main, h.beat, h.pulse, h.nap, h.count, h.conn⟩

theorem pres (E : Env) (m : Mode) : Pres (D E) (I m) where
  env sh sh' tr ss h he := by
    obtain ⟨h1, h2⟩ := h
    cases he
    · refine ⟨h1, fun hc => ?_⟩
      have := h2 ⟨hc.1, hc.2, hc.3, hc.4, hc.5, hc.6⟩
      exact this.like ⟨this.1.1, this.1.2, this.1.3, this.1.4, this.1.5⟩ rfl rfl rfl
    · exact ⟨h1, fun hc => by have := hc.ctx; cases this⟩
    · refine ⟨h1, fun hc => ?_⟩
      have := h2 ⟨hc.1, hc.2, hc.3, hc.4, hc.5, hc.6⟩
      exact this.like ⟨this.1.1, this.1.2, this.1.3, this.1.4, this.1.5⟩ rfl rfl rfl
  call sh tr ss c h _ := by
    obtain ⟨h1, h2⟩ := h
    refine ⟨h1, fun hc => ?_⟩
    have h := h2 hc
    have hb : (D E).born (.api c) = .free ∨ (D E).born (.api c) = .close := by
      cases c <;> first | exact .inl rfl | exact .inr rfl
    generalize (D E).born (.api c) = b at hb
    have hb' : tokN b = 0 ∧ monN b = 0 ∧ mainN b = 0 ∧ beatN b = 0 ∧ pulseN b = 0 ∧ ackN b = 0 ∧ napN b = 0 ∧ Fact sh tr b := by
      rcases hb with rfl | rfl <;> exact ⟨rfl, rfl, rfl, rfl, rfl, rfl, rfl, trivial⟩
    obtain ⟨b1, b2, b3, b4, b5, b6, b7, b8⟩ := hb'
    refine ⟨h.opens, h.quiet, ?_, ?_, ?_, ?_, ?_, ?_, ?_, h.count, ?_⟩
    · intro i s hs
      by_cases hi : i < ss.length
      · rw [List.getElem?_append_left hi] at hs
        exact h.fact i s hs
      · rw [List.getElem?_append_right (by omega)] at hs
        rw [List.mem_singleton.mp (List.mem_of_getElem? hs)]
        exact b8
    · rw [tot_append, tot_cons, tot_nil, h.tok, b1]
    · rw [tot_append, tot_cons, tot_nil, h.mon, b2]
    · rw [tot_append, tot_cons, tot_nil, h.main, b3]; rfl
    · rw [tot_append, tot_cons, tot_nil, h.beat, b4]
    · rw [tot_append, tot_cons, tot_nil, h.pulse, b5, tot_append, tot_cons, tot_nil, b6]; omega
    · rcases h.nap with h | h
      · exact .inl h
      · exact .inr (by rw [tot_append, tot_cons, tot_nil, h, b7])
    · rcases h.conn with ⟨i, s, hi, hs⟩ | h
      · exact .inl ⟨i, s, by rw [List.getElem?_append_left (List.getElem?_eq_some_iff.mp hi).1]; exact hi, hs⟩
      · exact .inr h
  run sh sh' tr ss i g s o r h hs hok hx := by
    obtain ⟨h1, h2⟩ := h
    refine ⟨?_, by rw [info_keep hx]; exact h1, fun hc => ?_⟩
    · show may o r
      cases o <;> first | trivial | skip
      · cases hx; exact h1
      · cases hx with
        | rand h => intro d hd; cases hd; exact h
        | randFail => intro d hd; cases hd
    · have hc0 := hc.before (Keep.ctx_mono hx)
      exact run_inv (h2 hc0) hs hok.1 hok.2 hx hc0 hc
  sync sh sh' tr ss i j gi gj si sj oi oj ri rj h hij hsi hsj hoi hoj hx := by
    obtain ⟨h1, h2⟩ := h
    refine ⟨?_, ?_, ?_, fun hc => ?_⟩
    · show may oi ri
      cases hx <;> trivial
    · show may oj rj
      cases hx <;> trivial
    · cases hx <;> exact h1
    · have hc0 : Clean m sh tr := hc.before (by cases hx <;> exact id)
      exact sync_inv (h2 hc0) hij hsi hsj hoi.2 hoj.2 hx
  crash sh tr ss i g s o h hs hok hx := by
    obtain ⟨h1, h2⟩ := h
    refine ⟨h1, fun hc => ?_⟩
    have h := h2 ⟨hc.1, hc.2, hc.3, hc.4, hc.5, hc.6⟩
    have hf := h.fact i s hs
    have ho := h.opens
    cases hx with
    | crash =>
      have := hok.2
      cases s <;> first | exact hf.elim | (cases this; done)
    | sendEst h => rw [ho.est] at h; cases h
    | sendAck h => rw [ho.ack] at h; cases h
    | sendData h => rw [ho.data] at h; cases h
    | closeEst h => rw [ho.est] at h; cases h
    | closeAck h => rw [ho.ack] at h; cases h
    | closeData h => rw [ho.data] at h; cases h

theorem reach {E : Env} (hE : E.maxStream ≠ 0) (m : Mode) {w : World} (h : Reachable E w) : ∃ ss, (D E).Linked w ss ∧ I m w.sh w.trace ss :=
  Disc.reach (good hE) (pres E m) (by
    refine ⟨rfl, fun _ => ⟨⟨rfl, rfl, rfl, rfl, rfl⟩, by intro x h; (cases h), ?_, rfl, rfl, rfl, rfl, rfl, .inl (by intro x h; (cases h)), rfl, .inl ⟨0, .main, rfl, rfl⟩⟩⟩
    intro i s hs
    match i with
    | 0 => cases hs; trivial
    | 1 => cases hs; exact ⟨rfl, rfl, rfl, rfl⟩
    | 2 => cases hs; trivial
    | i + 3 => simp at hs) h

/-- The roles of the goroutines of a session with answered heartbeats. -/
theorem roles {E : Env} (hE : E.maxStream ≠ 0) {m : Mode} {w : World} (h : Alone E w) (hu : Attended m w) :
    ∃ ss, (D E).Linked w ss ∧ Inv 1 (if w.sh.handed then 0 else 1) 0 w.sh w.trace ss := by
  obtain ⟨ss, hl, hi⟩ := reach hE m h.reachable
  refine ⟨ss, hl, hi.2 ⟨hu.1, hu.2, hu.3, hu.4, hu.5, fun l₁ x l₂ b h1 h2 h3 => ?_⟩⟩
  have := c77_compared h h1 h2
  rwa [if_pos h3] at this

end M3.Conn.Pulse
