import Verif.Lemmas.Conn.PulseSent

/- Heartbeats and their answers, one by one: of the heartbeats with certain data, all but the last have been answered. -/

set_option autoImplicit false
set_option linter.unusedSimpArgs false

namespace M3.Conn.Pulse

open Spec
open Calm (handed_exec)

/-- A heartbeat with data `d`. -/
def beatOf (d : Bytes) : Bytes := message 1 3 3 [tlv 9 d]

theorem tlv_inj {t : Nat} {d d' : Bytes} (h : tlv t d = tlv t d') (hl : d.length = d'.length) : d = d' := by
  unfold tlv at h
  rw [hl] at h
  exact List.append_cancel_left (List.append_cancel_right h)

theorem beatOf_inj {d d' : Bytes} (hd : d.length = 128) (hd' : d'.length = 128) : beatOf d = beatOf d' ↔ d = d' := by
  refine ⟨fun h => ?_, fun h => by rw [h]⟩
  have e : ∀ x : Bytes, x.length = 128 → (8 + ([tlv 9 x] : List Bytes).flatten.length) = 140 := by
    intro x hx
    simp [tlv, be16, hx, pad]
  unfold beatOf message at h
  rw [e d hd, e d' hd'] at h
  have := List.append_cancel_left h
  simp only [List.flatten_cons, List.flatten_nil, List.append_nil] at this
  exact tlv_inj this (hd.trans hd'.symm)

/-- The step sends a heartbeat with data `d`. -/
def beatRec (d : Bytes) (x : Rec) : Bool :=
  match x.gor, x.ev.op with
  | .beatLoop, .write b _ => b = beatOf d
  | _, _ => false

/-- How many heartbeats with data `d` were sent, and how many answers with these data have come. -/
def wroteN (d : Bytes) (tr : List Rec) : Nat := tr.countP (beatRec d)
def acked (d : Bytes) (tr : List Rec) : Nat := (receives tr).countP fun raw => ackData raw = some d

/-- One heartbeat waits for an answer, with data `d`. -/
def open1 (d : Bytes) (tr : List Rec) : Nat := if awaiting tr = true ∧ drawn tr = some d then 1 else 0

def postN : G → Nat
  | .posted _ => 1
  | _ => 0

def postOf (d : Bytes) : G → Nat
  | .posted d' => if d' = d then 1 else 0
  | _ => 0

/-- The data the goroutine that sends heartbeats works with. -/
def holds : G → Option Bytes
  | .drew d | .posted d => some d
  | _ => none

structure K (tr : List Rec) (ss : List G) : Prop where
  data : ∀ (i : Nat) (s : G) (d : Bytes), ss[i]? = some s → holds s = some d → drawn tr = some d ∧ d.length = 128
  post : tot postN ss = if posted tr then 1 else 0
  even : ∀ d, d.length = 128 → wroteN d tr = acked d tr + tot (postOf d) ss + open1 d tr
  wrote : ∀ x ∈ tr, x.gor = .beatLoop → ∀ b st, x.ev.op = .write b st → ∃ d, d.length = 128 ∧ b = beatOf d
  held : awaiting tr = true → ∃ d, drawn tr = some d ∧ d.length = 128

theorem wroteN_append (d : Bytes) (tr : List Rec) (x : Rec) : wroteN d (tr ++ [x]) = wroteN d tr + if beatRec d x then 1 else 0 := by
  simp [wroteN, List.countP_append, List.countP_cons]

theorem posted_append (tr : List Rec) (x : Rec) : posted (tr ++ [x]) = match x.gor, x.ev.op with
    | .beatLoop, .write .. => true
    | _, .setBeat => false
    | _, _ => posted tr := by
  unfold posted
  rw [List.foldl_append]
  rfl

theorem K.step {tr : List Rec} {ss : List G} (h : K tr ss) {i : Nat} {s : G} (hs : ss[i]? = some s) (s' : G) (gs : List G) (x : Rec)
    (hd : ∀ d, holds s' = some d → drawn (tr ++ [x]) = some d ∧ d.length = 128) (hg : ∀ t ∈ gs, holds t = none)
    (ho : drawn (tr ++ [x]) = drawn tr ∨ ∀ (j : Nat) (t : G), j ≠ i → ss[j]? = some t → holds t = none)
    (hp : postN s' + (if posted tr then 1 else 0) = postN s + if posted (tr ++ [x]) then 1 else 0)
    (he : ∀ d, d.length = 128 → wroteN d (tr ++ [x]) + acked d tr + postOf d s + open1 d tr =
      wroteN d tr + acked d (tr ++ [x]) + postOf d s' + open1 d (tr ++ [x]))
    (hw : x.gor = .beatLoop → ∀ b st, x.ev.op = .write b st → ∃ d, d.length = 128 ∧ b = beatOf d)
    (hh : awaiting (tr ++ [x]) = true → ∃ d, drawn (tr ++ [x]) = some d ∧ d.length = 128) : K (tr ++ [x]) (ss.set i s' ++ gs) := by
  have h0 : ∀ t, holds t = none → postN t = 0 ∧ ∀ d, postOf d t = 0 := by
    intro t h; cases t <;> first | exact ⟨rfl, fun _ => rfl⟩ | cases h
  refine ⟨fun j t d hj ht => ?_, ?_, fun d hd => ?_, fun y hy => ?_, hh⟩
  · rcases mem_set_cases hs hj with ⟨-, rfl⟩ | ⟨hji, hj⟩ | hj
    · exact hd d ht
    · rcases ho with ho | ho
      · rw [ho]; exact h.data j t d hj ht
      · rw [ho j t hji hj] at ht; cases ht
    · rw [hg t hj] at ht; cases ht
  · have := tot_set postN s' hs
    have h1 := h.post
    have h2 : tot postN gs = 0 := Keep.tot_zero_of fun t ht => (h0 t (hg t ht)).1
    rw [tot_append]; omega
  · have := tot_set (postOf d) s' hs
    have h1 := h.even d hd
    have h2 : tot (postOf d) gs = 0 := Keep.tot_zero_of fun t ht => (h0 t (hg t ht)).2 d
    have h3 := he d hd
    rw [tot_append]; omega
  · rcases List.mem_append.mp hy with hy | hy
    · exact h.wrote y hy
    · rw [List.mem_singleton.mp hy]; exact hw

/-- A step that has nothing to do with heartbeats. -/
theorem K.plain {tr : List Rec} {ss : List G} (h : K tr ss) {i : Nat} {s : G} (hs : ss[i]? = some s) (s' : G) (gs : List G) (x : Rec)
    (hpl : Pulse.plain x.ev.op = true) (hw : x.gor = .beatLoop → ∀ b st, x.ev.op ≠ .write b st)
    (hh : s' = s ∨ (holds s = none ∧ holds s' = none)) (hg : ∀ t ∈ gs, holds t = none) : K (tr ++ [x]) (ss.set i s' ++ gs) := by
  have hdr := drawn_plain (l := tr) hpl
  have haw := awaiting_plain (l := tr) hpl
  have hr := receives_plain (l := tr) hpl
  have hb : ∀ d, beatRec d x = false := by
    intro d
    obtain ⟨i, g, o, r⟩ := x
    cases g <;> cases o <;> first | rfl | (exact (hw rfl _ _ rfl).elim)
  have hpo : posted (tr ++ [x]) = posted tr := by
    rw [posted_append]
    obtain ⟨i, g, o, r⟩ := x
    cases g <;> cases o <;> first | rfl | (cases hpl; done) | (exact (hw rfl _ _ rfl).elim)
  have h0 : postN s' = postN s ∧ ∀ d, postOf d s' = postOf d s := by
    rcases hh with rfl | ⟨h1, h2⟩
    · exact ⟨rfl, fun _ => rfl⟩
    · cases s <;> first | (cases h1; done) | (cases s' <;> first | exact ⟨rfl, fun _ => rfl⟩ | cases h2)
  refine h.step hs s' gs x (fun d hd => ?_) hg (.inl hdr) (by rw [hpo, h0.1]) (fun d _ => ?_)
    (fun hg b st h => (hw hg b st h).elim) (by rw [hdr, haw]; exact h.held)
  · rw [hdr]
    rcases hh with rfl | ⟨-, h2⟩
    · exact h.data i s' d hs hd
    · rw [h2] at hd; cases hd
  · rw [wroteN_append, hb, h0.2]
    unfold acked open1
    rw [hr, hdr, haw]
    simp

/-- The goroutine that sends heartbeats is the only one. -/
theorem Inv.single {c cm cp : Nat} {sh : Shared} {tr : List Rec} {ss : List G} (h : Inv c cm cp sh tr ss) {i : Nat} {s : G}
    (hs : ss[i]? = some s) (hb : beatN s = 1) : (∀ (j : Nat) (t : G), j ≠ i → ss[j]? = some t → holds t = none) ∧ tot postN ss = postN s := by
  have key : ∀ (j : Nat) (t : G), j ≠ i → ss[j]? = some t → beatN t = 0 := by
    intro j t hj ht
    have := tot_ge_two beatN hj ht hs
    have := h.beat
    omega
  refine ⟨fun j t hj ht => ?_, ?_⟩
  · have := key j t hj ht
    cases t <;> first | rfl | cases this
  · have h1 := tot_set postN .over hs
    have h2 : tot postN (ss.set i .over) = 0 := Keep.tot_zero_of fun t ht => by
      obtain ⟨j, hj⟩ := List.getElem?_of_mem ht
      rw [← List.append_nil (ss.set i .over)] at hj
      rcases mem_set_cases hs hj with ⟨-, rfl⟩ | ⟨hji, hj⟩ | hj
      · rfl
      · have := key j t hji hj
        cases t <;> first | rfl | cases this
      · cases hj
    have h3 : postN .over = 0 := rfl
    omega

theorem not_awaiting {tr : List Rec} (h : aw tr = 0) : awaiting tr = false := by
  unfold aw at h
  cases ha : awaiting tr with
  | false => rfl
  | true => rw [ha] at h; cases h

theorem run_even {E : Env} {m : Mode} {sh sh' : Shared} {tr : List Rec} {ss : List G} {i : Nat} {g : Gor} {s : G} {o : Op} {r : Resp o} {cm : Nat}
    (h : Inv 1 cm 0 sh tr ss) (hk : K tr ss) (hs : ss[i]? = some s) (hfit : Fits g s) (hok : ok E s o) (hx : Exec sh o r sh')
    (hc : Clean m sh tr) (hc' : Clean m sh' (tr ++ [⟨i, g, o, r⟩])) :
    K (tr ++ [⟨i, g, o, r⟩]) (ss.set i (next s o r) ++ (spawned o).map born) := by
  have hf := h.fact i s hs
  have hoff : s ≠ .off := by rintro rfl; exact hf.elim
  have hcalm : s ≠ .free → s ≠ .close → (⟨o, r⟩ : Ev).calm = true := fun h1 h2 => hc'.calm ⟨i, g, o, r⟩ (by simp) (by
    have := (fits_user hfit hoff).1
    cases hb : ofUser g with
    | false => rfl
    | true => rcases this.mp hb with h | h <;> contradiction)
  have hgs : ∀ t ∈ (spawned o).map born, holds t = none := fun t ht => by
    have := (free_born hok hoff ht).2.1
    cases t <;> first | rfl | cases this
  cases s <;> first | (exact (hoff rfl).elim) | skip
  case beat =>
    obtain ⟨hz, hn⟩ := h.preparing hs rfl
    obtain ⟨hone, hpost⟩ := h.single hs rfl
    replace hcalm := hcalm (by simp) (by simp)
    cases o <;> first | (cases hok; done) | skip
    case rand =>
      cases hx with
      | randFail => cases hcalm
      | @rand d hd =>
        refine hk.step hs (.drew d) [] ⟨i, g, .rand, some d⟩ (fun d' h' => ?_) (by intro t h; cases h) (.inr hone) ?_ (fun d' _ => ?_)
          (fun _ _ _ h => by cases h) (fun ha => by rw [awaiting_append, not_awaiting hz] at ha; cases ha)
        · cases h'
          exact ⟨by simp [drawn, List.filterMap_append], hd⟩
        · rw [posted_append]
          cases g <;> rfl
        · have h1 : awaiting (tr ++ [⟨i, g, .rand, some d⟩]) = awaiting tr := by rw [awaiting_append]
          have h2 : receives (tr ++ [⟨i, g, .rand, some d⟩]) = receives tr := received_same rfl
          have h3 : beatRec d' ⟨i, g, .rand, some d⟩ = false := by cases g <;> rfl
          unfold acked open1
          rw [wroteN_append, h3, h2, h1, not_awaiting hz]
          simp [postOf]
    case sleepSelect =>
      cases hx with
      | sleepCtx h1 => rw [show sh.ctxDone = false from hc.ctx] at h1; cases h1
      | sleepElapsed => exact hk.plain hs .beat [] ⟨i, g, .sleepSelect, false⟩ rfl (fun _ _ _ h => by cases h) (.inl rfl) (by intro t h; cases h)
  case drew d =>
    obtain ⟨hone, hpost⟩ := h.single hs rfl
    replace hcalm := hcalm (by simp) (by simp)
    have hg : g = .beatLoop := by
      cases g with
      | api c => cases c <;> simp [Fits] at hfit
      | beatLoop => rfl
      | _ => simp [Fits, G.mon] at hfit
    subst hg
    cases o <;> first | (cases hok; done) | skip
    case info => exact hk.plain hs (.drew d) [] ⟨i, .beatLoop, .info, r⟩ rfl (fun _ _ _ h => by cases h) (.inl rfl) (by intro t h; cases h)
    case write b st =>
      obtain ⟨hd, rfl⟩ := hok
      cases r with
      | none => cases hcalm
      | some n =>
        have hpl : Pulse.plain (.write (message 1 3 3 [tlv 9 d]) st) = true := rfl
        refine hk.step hs (.posted d) [] ⟨i, .beatLoop, .write (message 1 3 3 [tlv 9 d]) st, some n⟩ (fun d' h' => ?_) (by intro t h; cases h)
          (.inl (drawn_plain hpl)) ?_ (fun d' hd' => ?_) (fun _ _ _ h => by cases h; exact ⟨d, hd, rfl⟩)
          (by rw [drawn_plain hpl, awaiting_plain hpl]; exact hk.held)
        · cases h'
          rw [drawn_plain hpl]
          exact hk.data i _ d hs rfl
        · have : posted tr = false := by
            have := hk.post
            rw [hpost] at this
            cases hp : posted tr with
            | false => rfl
            | true => rw [hp] at this; cases this
          rw [posted_append, this]; rfl
        · unfold acked open1
          rw [wroteN_append, receives_plain hpl, awaiting_plain hpl, drawn_plain hpl]
          have : beatRec d' ⟨i, .beatLoop, .write (message 1 3 3 [tlv 9 d]) st, some n⟩ = decide (d = d') := by
            show decide (beatOf d = beatOf d') = _
            simp [beatOf_inj hd hd']
          rw [this]
          by_cases hdd : d = d' <;> simp [postOf, hdd] <;> omega
  case posted d =>
    obtain rfl : o = .setBeat := hok
    obtain ⟨hz, hn⟩ := h.preparing hs rfl
    obtain ⟨hone, hpost⟩ := h.single hs rfl
    obtain ⟨hdr, hd⟩ := hk.data i _ d hs rfl
    have hdr' : drawn (tr ++ [⟨i, g, .setBeat, r⟩]) = drawn tr := drawn_append_none fun _ h => by cases h
    refine hk.step hs .pulse [] ⟨i, g, .setBeat, r⟩ (fun d' h' => by cases h') (by intro t h; cases h) (.inl hdr') ?_ (fun d' hd' => ?_)
      (fun _ _ _ h => by cases h) (fun _ => ⟨d, by rw [hdr', hdr], hd⟩)
    · have hp := hk.post
      rw [hpost] at hp
      rw [← hp, posted_append]
      cases g <;> rfl
    · have h2 : receives (tr ++ [⟨i, g, .setBeat, r⟩]) = receives tr := received_same rfl
      have h3 : beatRec d' ⟨i, g, .setBeat, r⟩ = false := by cases g <;> rfl
      have h4 : awaiting (tr ++ [⟨i, g, .setBeat, r⟩]) = true := by rw [awaiting_append]
      unfold acked open1
      rw [wroteN_append, h2, h3, h4, not_awaiting hz, hdr', hdr]
      simp [postOf]
  case ready =>
    obtain rfl : o = .read 1500 := hok
    replace hcalm := hcalm (by simp) (by simp)
    cases r with
    | none => cases hcalm
    | some b =>
      have hdr' : drawn (tr ++ [⟨i, g, .read 1500, some b⟩]) = drawn tr := drawn_append_none fun _ h => by cases h
      refine hk.step hs (.raw b) [] ⟨i, g, .read 1500, some b⟩ (fun d' h' => by cases h') (by intro t h; cases h) (.inl hdr') ?_ (fun d' hd' => ?_)
        (fun _ _ _ h => by cases h) (fun ha => by
          rw [awaiting_append] at ha
          rw [hdr']
          exact hk.held (by simp only [Bool.and_eq_true] at ha; exact ha.1))
      · rw [posted_append]
        cases g <;> rfl
      · have h2 : receives (tr ++ [⟨i, g, .read 1500, some b⟩]) = receives tr ++ [b] := by rw [Flow.receives_append]; rfl
        have h3 : beatRec d' ⟨i, g, .read 1500, some b⟩ = false := by cases g <;> rfl
        have h4 : awaiting (tr ++ [⟨i, g, .read 1500, some b⟩]) = (awaiting tr && decide (meaning b ≠ some .heartbeatAck)) := awaiting_append _ _
        have hin := hc'.acks tr ⟨i, g, .read 1500, some b⟩ [] 1500 b rfl rfl
        unfold acked open1
        rw [wroteN_append, h2, h3, h4, hdr', List.countP_append, List.countP_cons, List.countP_nil]
        by_cases hm : meaning b = some .heartbeatAck
        · obtain ⟨ha, d, hd1, hd2⟩ := hin hm
          rw [hd1, hd2, ha, hm]
          by_cases hdd : d = d' <;> simp [postOf, hdd] <;> omega
        · have : ackData b = none := by
            unfold ackData
            split
            · rename_i h _; exact (hm h).elim
            · rfl
          rw [this]
          simp [postOf, hm]
  case over => cases hok
  all_goals
    refine hk.plain hs _ _ _ ?_ ?_ ?_ hgs
    · cases o <;> first | rfl | (cases hok; done)
    · rintro rfl
      first
        | (simp only [Fits, reduceCtorEq, exists_false, or_self] at hfit; done)
        | (intro b st h; subst h; cases hok; done)
    · refine .inr ⟨rfl, ?_⟩
      cases o <;> first | (cases hok; done) | skip
      all_goals simp only [next, G.seen, G.wrote, G.est, G.heard, G.lock, G.getSt, G.putSt, G.sendEst, G.unlock, G.read, G.passed, G.done, G.compared,
        G.told, G.woken, G.heardAck, G.stored]
      all_goals first
        | rfl
        | (split <;> rfl)
        | (cases r <;> rfl)
        | skip

theorem sync_even {E : Env} {sh sh' : Shared} {tr : List Rec} {ss : List G} {i j : Nat} {gi gj : Gor} {si sj : G} {oi oj : Op}
    {ri : Resp oi} {rj : Resp oj} {c cm cp : Nat} (h : Inv c cm cp sh tr ss) (hk : K tr ss) (hij : i ≠ j) (hsi : ss[i]? = some si)
    (hsj : ss[j]? = some sj) (hoi : ok E si oi) (hoj : ok E sj oj) (hx : Sync sh oi ri oj rj sh') :
    K (tr ++ [⟨i, gi, oi, ri⟩, ⟨j, gj, oj, rj⟩]) ((ss.set i (next si oi ri)).set j (next sj oj rj)) := by
  have hfi := h.fact i si hsi
  have hfj := h.fact j sj hsj
  have hj' : ∀ s', (ss.set i s' ++ [])[j]? = some sj := by
    intro s'; rw [List.append_nil, getElem?_set_ne' _ hij]; exact hsj
  have key : holds si = none ∧ holds (next si oi ri) = none ∧ holds sj = none ∧ holds (next sj oj rj) = none ∧
      Pulse.plain oi = true ∧ Pulse.plain oj = true ∧ (∀ b st, oi ≠ .write b st) ∧ (∀ b st, oj ≠ .write b st) := by
    cases hx with
    | err => cases si <;> first | (cases hoi; done) | exact hfi.elim
    | ack _ =>
      cases si <;> first | (cases hoi; done) | exact hfi.elim | skip
      cases sj <;> first | (cases hoj; done) | exact hfj.elim | skip
      exact ⟨rfl, rfl, rfl, rfl, rfl, rfl, by intro b st h; (cases h), by intro b st h; (cases h)⟩
    | est _ =>
      cases sj <;> first | (cases hoj; done) | exact hfj.elim | skip
      cases si <;> first | (cases hoi; done) | exact hfi.elim | skip
      exact ⟨rfl, rfl, rfl, rfl, rfl, rfl, by intro b st h; (cases h), by intro b st h; (cases h)⟩
    | @state s =>
      cases sj <;> first | (cases hoj; done) | exact hfj.elim | skip
      have : holds (next .wait .monSelect (.state s)) = none := by cases s <;> rfl
      cases si <;> first | (cases hoi; done) | exact hfi.elim | skip
      all_goals exact ⟨rfl, rfl, rfl, this, rfl, rfl, by intro b st h; (cases h), by intro b st h; (cases h)⟩
  obtain ⟨k1, k2, k3, k4, k5, k6, k7, k8⟩ := key
  have a := hk.plain hsi (next si oi ri) [] ⟨i, gi, oi, ri⟩ k5 (fun _ => k7) (.inr ⟨k1, k2⟩) (by intro t h; cases h)
  have b := a.plain (hj' _) (next sj oj rj) [] ⟨j, gj, oj, rj⟩ k6 (fun _ => k8) (.inr ⟨k3, k4⟩) (by intro t h; cases h)
  simpa using b

def IJ (E : Env) (sh : Shared) (tr : List Rec) (ss : List G) : Prop :=
  I E.mode sh tr ss ∧ (Clean E.mode sh tr → J E sh tr ss ∧ K tr ss)

theorem pres_sent (E : Env) : Pres (D E) (IJ E) where
  env sh sh' tr ss h he := by
    refine ⟨(pres E E.mode).env _ _ _ _ h.1 he, fun hc => ?_⟩
    cases he
    · have := h.2 ⟨hc.1, hc.2, hc.3, hc.4, hc.5, hc.6⟩
      exact ⟨this.1.same rfl rfl, this.2⟩
    · have := hc.ctx; cases this
    · have := h.2 ⟨hc.1, hc.2, hc.3, hc.4, hc.5, hc.6⟩
      exact ⟨this.1.same rfl rfl, this.2⟩
  call sh tr ss c h hh := by
    refine ⟨(pres E E.mode).call _ _ _ _ h.1 hh, fun hc => ?_⟩
    obtain ⟨hj, hk⟩ := h.2 hc
    have hb : ((D E).born (.api c)).tok = false ∧ holds ((D E).born (.api c)) = none ∧ postN ((D E).born (.api c)) = 0 ∧
        ∀ d, postOf d ((D E).born (.api c)) = 0 := by cases c <;> exact ⟨rfl, rfl, rfl, fun _ => rfl⟩
    obtain ⟨b1, b2, b3, b4⟩ := hb
    have split : ∀ {i : Nat} {s : G}, (ss ++ [(D E).born (.api c)])[i]? = some s → ss[i]? = some s ∨ s = (D E).born (.api c) := by
      intro i s hi
      by_cases hl : i < ss.length
      · rw [List.getElem?_append_left hl] at hi
        exact .inl hi
      · rw [List.getElem?_append_right (by omega)] at hi
        exact .inr (List.mem_singleton.mp (List.mem_of_getElem? hi))
    refine ⟨⟨fun _ _ => hh, fun _ => hh, fun _ _ _ _ => hh, fun i s hi hs => ?_⟩, fun i s d hi hs => ?_, ?_, fun d hd => ?_, hk.wrote, hk.held⟩
    · rcases split hi with hi | rfl
      · exact hj.sent i s hi hs
      · rw [b1] at hs; cases hs
    · rcases split hi with hi | rfl
      · exact hk.data i s d hi hs
      · rw [b2] at hs; cases hs
    · rw [tot_append, tot_cons, tot_nil, b3]; exact hk.post
    · rw [tot_append, tot_cons, tot_nil, b4]; exact hk.even d hd
  run sh sh' tr ss i g s o r h hs hok hx := by
    obtain ⟨a, b⟩ := (pres E E.mode).run _ _ _ _ i g s o r h.1 hs hok hx
    refine ⟨a, b, fun hc => ?_⟩
    have hc0 := hc.before (Keep.ctx_mono hx)
    obtain ⟨hj, hk⟩ := h.2 hc0
    exact ⟨run_sent (h.1.2 hc0) hj hs hok.1 hok.2 hx hc0 hc, run_even (h.1.2 hc0) hk hs hok.1 hok.2 hx hc0 hc⟩
  sync sh sh' tr ss i j gi gj si sj oi oj ri rj h hij hsi hsj hoi hoj hx := by
    obtain ⟨a, a', b⟩ := (pres E E.mode).sync _ _ _ _ i j gi gj si sj oi oj ri rj h.1 hij hsi hsj hoi hoj hx
    refine ⟨a, a', b, fun hc => ?_⟩
    have hc0 : Clean E.mode sh tr := hc.before (by cases hx <;> exact id)
    obtain ⟨hj, hk⟩ := h.2 hc0
    exact ⟨sync_sent (h.1.2 hc0) hj hij hsi hsj hoi.2 hoj.2 hx hc0, sync_even (h.1.2 hc0) hk hij hsi hsj hoi.2 hoj.2 hx⟩
  crash sh tr ss i g s o h hs hok hx :=
    ⟨(pres E E.mode).crash _ _ _ i g s o h.1 hs hok hx, fun hc => by
      have := h.2 ⟨hc.1, hc.2, hc.3, hc.4, hc.5, hc.6⟩
      exact ⟨this.1.same rfl rfl, this.2⟩⟩

theorem clean_of {E : Env} {w : World} (h : Alone E w) {m : Mode} (hu : Attended m w) : Clean m w.sh w.trace :=
  ⟨hu.1, hu.2, hu.3, hu.4, hu.5, fun l₁ x l₂ b h1 h2 h3 => by
    have := c77_compared h h1 h2
    rwa [if_pos h3] at this⟩

theorem roles_sent {E : Env} (hE : E.maxStream ≠ 0) {w : World} (h : Alone E w) (hu : Attended E.mode w) :
    ∃ ss, (D E).Linked w ss ∧ Inv 1 (if w.sh.handed then 0 else 1) 0 w.sh w.trace ss ∧ J E w.sh w.trace ss ∧ K w.trace ss := by
  obtain ⟨ss, hl, hi, hj⟩ := Disc.reach (I := IJ E) (good hE) (pres_sent E) (by
    refine ⟨⟨rfl, fun _ => ⟨⟨rfl, rfl, rfl, rfl, rfl⟩, by intro x h; (cases h), ?_, rfl, rfl, rfl, rfl, rfl, .inl (by intro x h; (cases h)), rfl, .inl ⟨0, .main, rfl, rfl⟩⟩⟩,
      fun _ => ⟨⟨?_, by intro h; (cases h), ?_, ?_⟩, ?_, rfl, fun _ _ => rfl, by intro x h; (cases h), by intro h; cases h⟩⟩
    · intro i s hs
      match i with
      | 0 => cases hs; trivial
      | 1 => cases hs; exact ⟨rfl, rfl, rfl, rfl⟩
      | 2 => cases hs; trivial
      | i + 3 => simp at hs
    · intro i hs
      match i with
      | 0 => cases hs
      | 1 => cases hs
      | 2 => cases hs
      | i + 3 => simp at hs
    · intro i s hs ht
      match i with
      | 0 => cases hs; rcases ht with h | h <;> cases h
      | 1 => cases hs; rcases ht with h | h <;> cases h
      | 2 => cases hs; rcases ht with h | h <;> cases h
      | i + 3 => simp at hs
    · intro i s hs ht
      match i with
      | 0 => cases hs; cases ht
      | 1 =>
        cases hs
        refine ⟨⟨[], [], rfl, ?_, by intro x h; (cases h), fun _ => rfl, by intro h; cases h⟩, fun k hk => by cases hk⟩
        cases hm : E.mode <;> rfl
      | 2 => cases hs; cases ht
      | i + 3 => simp at hs
    · intro i s d hs ht
      match i with
      | 0 => cases hs; cases ht
      | 1 => cases hs; cases ht
      | 2 => cases hs; cases ht
      | i + 3 => simp at hs) h.reachable
  have hc := clean_of h hu
  exact ⟨ss, hl, hi.2 hc, hj hc⟩

/-- What an endpoint has sent, and which of its heartbeats wait for an answer. -/
theorem sent {E : Env} (hE : E.maxStream ≠ 0) {w : World} (h : Alone E w) (hu : Attended E.mode w) :
    (∃ k, Sent E k w.sh w.trace) ∧ (posted w.trace = false → ∀ d, d.length = 128 → wroteN d w.trace = acked d w.trace + open1 d w.trace) ∧
    (∀ x ∈ w.trace, x.gor = .beatLoop → ∀ b st, x.ev.op = .write b st → ∃ d, d.length = 128 ∧ b = beatOf d) ∧
    (awaiting w.trace = true → ∃ d, d.length = 128 ∧ acked d w.trace + 1 ≤ wroteN d w.trace) := by
  obtain ⟨ss, -, hi, hj, hk⟩ := roles_sent hE h hu
  obtain ⟨i, s, hs, ht⟩ := hi.holder
  refine ⟨⟨_, (hj.sent i s hs ht).1⟩, fun hp d hd => ?_, hk.wrote, fun ha => ?_⟩
  · have h1 := hk.post
    rw [hp] at h1
    have h2 : tot (postOf d) ss = 0 := by
      have : tot (postOf d) ss ≤ tot postN ss := tot_le (fun t => by cases t <;> simp [postOf, postN]; split <;> omega) ss
      simp at h1; omega
    have := hk.even d hd
    omega
  · obtain ⟨d, h1, h2⟩ := hk.held ha
    have := hk.even d h2
    rw [open1, if_pos ⟨ha, h1⟩] at this
    exact ⟨d, h2, by omega⟩

end M3.Conn.Pulse
