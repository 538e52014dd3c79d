import Verif.Lemmas.Conn.Pulse

/- The invariant of sessions with answered heartbeats. -/

set_option autoImplicit false
set_option linter.unusedSimpArgs false

namespace M3.Conn.Pulse

open Spec
open Calm (before after full kindOf kindOf_ok entry answer okFree okDat okPkt okPktd okUpd Opens stage_active info_keep expected)

/-- The number of heartbeats that wait for an answer. -/
def aw (tr : List Rec) : Nat := if awaiting tr then 1 else 0

theorem awaiting_append (l : List Rec) (x : Rec) : awaiting (l ++ [x]) = match x.ev with
    | ⟨.setBeat, _⟩ => true
    | ⟨.read _, some raw⟩ => awaiting l && decide (meaning raw ≠ some .heartbeatAck)
    | _ => awaiting l := by
  unfold awaiting
  rw [List.foldl_append]
  rfl

/-- What a step has to leave alone. -/
def plain : Op → Bool
  | .setBeat | .rand | .read _ => false
  | _ => true

theorem awaiting_plain {l : List Rec} {x : Rec} (h : plain x.ev.op = true) : awaiting (l ++ [x]) = awaiting l := by
  obtain ⟨i, g, o, r⟩ := x
  rw [awaiting_append]
  cases o <;> first | rfl | (cases h; done)

theorem noted_plain {l : List Rec} {x : Rec} (h : plain x.ev.op = true) : noted (l ++ [x]) = noted l := by
  obtain ⟨i, g, o, r⟩ := x
  rw [noted_append]
  cases o <;> first | (cases h; done) | simp

theorem drawn_plain {l : List Rec} {x : Rec} (h : plain x.ev.op = true) : drawn (l ++ [x]) = drawn l := by
  refine drawn_append_none fun r hr => ?_
  rw [hr] at h; cases h

theorem receives_plain {l : List Rec} {x : Rec} (h : plain x.ev.op = true) : receives (l ++ [x]) = receives l := by
  obtain ⟨i, g, o, r⟩ := x
  rw [Flow.receives_append]
  cases o <;> first | exact List.append_nil _ | (cases h; done)

theorem stores_append (l : List Rec) (x : Rec) : stores (l ++ [x]) = stores l + if x.ev.op = .setBeat then 1 else 0 := by
  unfold stores
  rw [List.countP_append, List.countP_cons, List.countP_nil]
  simp

/-- Who waits was noted. -/
theorem awaiting_noted {l : List Rec} (h : awaiting l = true) : noted l = true := by
  obtain ⟨n, hn⟩ : ∃ n, l.length = n := ⟨_, rfl⟩
  induction n generalizing l with
  | zero => rw [List.length_eq_zero_iff.mp hn] at h; cases h
  | succ n ih =>
    rcases List.eq_nil_or_concat l with rfl | ⟨l, x, rfl⟩
    · cases h
    rw [List.concat_eq_append] at h hn ⊢
    have hl : l.length = n := by simpa using hn
    clear hn
    obtain ⟨i, g, o, r⟩ := x
    rw [awaiting_append] at h
    rw [noted_append]
    cases o with
    | setBeat => simp
    | read k =>
      cases r with
      | none => simp [ih h hl]
      | some raw =>
        simp only [Bool.and_eq_true] at h
        simp [ih h.1 hl]
    | _ => simp [ih h hl]

/-- What is known of the shared state from the role of a goroutine. -/
def Fact (sh : Shared) (tr : List Rec) : G → Prop
  | .off => False
  | .dat => 3 ≤ (receives tr).length
  | .start => receives tr = [] ∧ sh.st = .down ∧ sh.locked = false ∧ sh.handed = false
  | .pkt k => (before k = stageAt ((receives tr).length - 1) ∧ after k = stageAt (receives tr).length ∧ (k = .data → 3 ≤ (receives tr).length)) ∧
      sh.st = stageAt ((receives tr).length - 1) ∧ sh.locked = false ∧ sh.handed = decide (3 ≤ (receives tr).length)
  | .pktd k => (before k = stageAt ((receives tr).length - 1) ∧ after k = stageAt (receives tr).length) ∧
      sh.st = stageAt ((receives tr).length - 1) ∧ sh.locked = false ∧ sh.handed = decide (3 ≤ (receives tr).length)
  | .ack d => (3 ≤ (receives tr).length ∧ noted tr = true ∧ drawn tr = some d) ∧
      sh.st = stageAt ((receives tr).length - 1) ∧ sh.locked = false ∧ sh.handed = decide (3 ≤ (receives tr).length)
  | .ackc => 3 ≤ (receives tr).length ∧
      sh.st = stageAt ((receives tr).length - 1) ∧ sh.locked = false ∧ sh.handed = decide (3 ≤ (receives tr).length)
  | .raw b => ((∃ rs', receives tr = rs' ++ [b]) ∧
      (meaning b = some .heartbeatAck → noted tr = true ∧ ∃ d, drawn tr = some d ∧ ackData b = some d)) ∧
      sh.st = stageAt ((receives tr).length - 1) ∧ sh.locked = false ∧ sh.handed = decide (3 ≤ (receives tr).length)
  | .got s => s = stageAt (receives tr).length ∧ sh.st = stageAt ((receives tr).length - 1) ∧ sh.locked = false ∧ sh.handed = decide (3 ≤ (receives tr).length)
  | .lckd s => s = stageAt (receives tr).length ∧ sh.st = stageAt ((receives tr).length - 1) ∧ sh.locked = true ∧ sh.handed = decide (3 ≤ (receives tr).length)
  | .prev s p => s = stageAt (receives tr).length ∧ sh.st = stageAt ((receives tr).length - 1) ∧ sh.locked = true ∧ sh.handed = decide (3 ≤ (receives tr).length) ∧ p = sh.st
  | .upd s p => s = stageAt (receives tr).length ∧ sh.st = s ∧ sh.locked = true ∧ sh.handed = decide (p = .active) ∧ (p = .active → s = .active)
  | .updd s _ => s = stageAt (receives tr).length ∧ sh.st = s ∧ sh.locked = true ∧ sh.handed = false ∧ s ≠ .active
  | .ready => sh.st = stageAt (receives tr).length ∧ sh.locked = false ∧ sh.handed = decide (2 ≤ (receives tr).length)
  | _ => True

def tokN (s : G) : Nat := if s.tok then 1 else 0
def monN (s : G) : Nat := if s.mon then 1 else 0
def mainN : G → Nat
  | .main => 1
  | _ => 0

/-- The goroutine that sends heartbeats, or will start it. -/
def beatN : G → Nat
  | .boot | .nap | .beat | .drew _ | .posted _ | .pulse => 1
  | _ => 0

/-- The same before it has been woken. -/
def napN : G → Nat
  | .boot | .nap => 1
  | _ => 0

def pulseN : G → Nat
  | .pulse => 1
  | _ => 0

/-- An answer is being handled. -/
def ackN : G → Nat
  | .ack _ | .ackc => 1
  | .raw b => if meaning b = some .heartbeatAck then 1 else 0
  | _ => 0

def isOpening : G → Bool
  | .main | .opened => true
  | _ => false

/-- The number of answers received. -/
def answers (rs : List Bytes) : Nat := rs.countP fun b => meaning b = some .heartbeatAck

structure Inv (c cm cp : Nat) (sh : Shared) (tr : List Rec) (ss : List G) : Prop where
  opens : Opens sh
  quiet : ∀ x ∈ tr, ∀ e, x.ev.op ≠ .sendErr e
  fact : ∀ (i : Nat) (s : G), ss[i]? = some s → Fact sh tr s
  tok : tot tokN ss = c
  mon : tot monN ss = 1
  main : tot mainN ss = cm
  beat : tot beatN ss = 1
  pulse : tot pulseN ss = tot ackN ss + aw tr + cp
  nap : (∀ x ∈ tr, x.ev.op ≠ .waitLeave) ∨ tot napN ss = 0
  count : stores tr = answers (receives tr) + aw tr
  conn : (∃ (i : Nat) (s : G), ss[i]? = some s ∧ isOpening s = true) ∨ ∃ x ∈ tr, x.ev = ⟨.opened .conn, ()⟩

/-- Nothing has gone wrong, and what was compared with a Heartbeat Ack was what had been drawn last. -/
structure Clean (m : Mode) (sh : Shared) (tr : List Rec) : Prop where
  ctx : sh.ctxDone = false
  peer : ∀ i raw, (receives tr)[i]? = some raw → expectedOrAck m i raw
  acks : InStep tr
  user : ∀ x ∈ tr, x.gor ≠ .api .close
  calm : ∀ x ∈ tr, ofUser x.gor = false → x.ev.calm = true
  cmp : ∀ l₁ x l₂ b, tr = l₁ ++ x :: l₂ → beat? x.ev = some b → noted l₁ = true → drawn l₁ = some b

def I (m : Mode) (sh : Shared) (tr : List Rec) (ss : List G) : Prop :=
  sh.info = ⟨3, 0⟩ ∧ (Clean m sh tr → Inv 1 (if sh.handed then 0 else 1) 0 sh tr ss)

theorem Clean.before {m : Mode} {sh sh' : Shared} {tr xs : List Rec} (h : Clean m sh' (tr ++ xs))
    (hc : sh'.ctxDone = false → sh.ctxDone = false) : Clean m sh tr := by
  refine ⟨hc h.ctx, fun i raw hi => h.peer i raw ?_, fun l₁ x l₂ n raw hl => h.acks l₁ x (l₂ ++ xs) n raw (by rw [hl]; simp),
    fun x hx => h.user x (List.mem_append_left _ hx), fun x hx => h.calm x (List.mem_append_left _ hx),
    fun l₁ x l₂ b hl => h.cmp l₁ x (l₂ ++ xs) b (by rw [hl]; simp)⟩
  rw [Flow.receives_append, List.getElem?_append_left (List.getElem?_eq_some_iff.mp hi).1]
  exact hi

theorem Clean.last {m : Mode} {sh : Shared} {tr : List Rec} (h : Clean m sh tr) {rs : List Bytes} {b : Bytes}
    (hr : receives tr = rs ++ [b]) : expectedOrAck m rs.length b := h.peer _ _ (by
  show (receives tr)[rs.length]? = _
  rw [hr]; simp)

theorem Fact.mono {sh sh' : Shared} {tr : List Rec} {x : Rec} {t : G} (ht : t.tok = false) (h : Fact sh tr t) : Fact sh' (tr ++ [x]) t := by
  cases t <;> first | exact h | (cases ht; done) | skip
  simp only [Fact, Flow.receives_append, List.length_append] at h ⊢
  omega

theorem Fact.same {sh sh' : Shared} {tr tr' : List Rec} {t : G} (h1 : sh'.st = sh.st) (h2 : sh'.locked = sh.locked)
    (h3 : sh'.handed = sh.handed) (h4 : receives tr' = receives tr) (h5 : ackN t = 0 ∨ noted tr' = noted tr ∧ drawn tr' = drawn tr)
    (h : Fact sh tr t) : Fact sh' tr' t := by
  cases t <;> simp only [Fact, h1, h2, h3, h4] at h ⊢ <;> first | exact h | skip
  · rcases h5 with h5 | ⟨h5, h6⟩
    · cases h5
    · rw [h5, h6]; exact h
  · rename_i b
    rcases h5 with h5 | ⟨h5, h6⟩
    · refine ⟨⟨h.1.1, fun h' => ?_⟩, h.2⟩
      rw [ackN, if_pos h'] at h5; cases h5
    · rw [h5, h6]; exact h

theorem tok_zero {c : Nat} {s : G} {ss : List G} (hc : tot tokN ss = c) (hc1 : c = 1) {i j : Nat} (hij : i ≠ j) (hs : ss[i]? = some s)
    (h : s.tok = true) {t : G} (ht : ss[j]? = some t) : t.tok = false := by
  have := tot_ge_two tokN hij hs ht
  have h1 : tokN s = 1 := by simp [tokN, h]
  cases h2 : t.tok with
  | false => rfl
  | true =>
    have : tokN t = 1 := by simp [tokN, h2]
    omega

theorem Inv.step {c cm cp c' cm' cp' : Nat} {sh sh' : Shared} {tr : List Rec} {ss : List G} (h : Inv c cm cp sh tr ss) {i : Nat} {s : G}
    (hs : ss[i]? = some s) (s' : G) (gs : List G) (x : Rec) (ho : Opens sh') (he : ∀ e, x.ev.op ≠ .sendErr e)
    (ht : tokN s' + tot tokN gs + c = tokN s + c') (hm : monN s' + tot monN gs = monN s)
    (ha : mainN s' + tot mainN gs + cm = mainN s + cm') (hb : beatN s' + tot beatN gs = beatN s)
    (hp : pulseN s' + tot pulseN gs + ackN s + aw tr + cp = pulseN s + ackN s' + tot ackN gs + aw (tr ++ [x]) + cp')
    (hw : napN s' + tot napN gs ≤ napN s) (hw' : x.ev.op = .waitLeave → tot napN ss + napN s' + tot napN gs = napN s)
    (hk : stores (tr ++ [x]) + answers (receives tr) + aw tr = stores tr + answers (receives (tr ++ [x])) + aw (tr ++ [x]))
    (hf : ∀ (j : Nat) (t : G), j ≠ i → ss[j]? = some t → Fact sh tr t → Fact sh' (tr ++ [x]) t)
    (hn : Fact sh' (tr ++ [x]) s') (hg : ∀ t ∈ gs, Fact sh' (tr ++ [x]) t)
    (hc : isOpening s = true → isOpening s' = true ∨ x.ev = ⟨.opened .conn, ()⟩) :
    Inv c' cm' cp' sh' (tr ++ [x]) (ss.set i s' ++ gs) where
  opens := ho
  quiet y hy := by
    rcases List.mem_append.mp hy with hy | hy
    · exact h.quiet y hy
    · rw [List.mem_singleton.mp hy]; exact he
  fact j t hj := by
    rcases mem_set_cases hs hj with ⟨-, rfl⟩ | ⟨hji, hj⟩ | hj
    · exact hn
    · exact hf j t hji hj (h.fact j t hj)
    · exact hg t hj
  tok := by
    have := tot_set tokN s' hs
    have := h.tok
    rw [tot_append]; omega
  mon := by
    have := tot_set monN s' hs
    have := h.mon
    rw [tot_append]; omega
  main := by
    have := tot_set mainN s' hs
    have := h.main
    rw [tot_append]; omega
  beat := by
    have := tot_set beatN s' hs
    have := h.beat
    rw [tot_append]; omega
  pulse := by
    have := tot_set pulseN s' hs
    have := tot_set ackN s' hs
    have := h.pulse
    rw [tot_append, tot_append]; omega
  nap := by
    have h1 := tot_set napN s' hs
    by_cases hl : x.ev.op = .waitLeave
    · have := hw' hl
      exact .inr (by rw [tot_append]; omega)
    · rcases h.nap with h2 | h2
      · refine .inl fun y hy => ?_
        rcases List.mem_append.mp hy with hy | hy
        · exact h2 y hy
        · rw [List.mem_singleton.mp hy]; exact hl
      · exact .inr (by rw [tot_append]; omega)
  count := by have := h.count; omega
  conn := by
    rcases h.conn with ⟨j, t, hj, ht⟩ | ⟨y, hy, hy'⟩
    · by_cases hij : i = j
      · subst hij
        rw [hs] at hj; cases hj
        obtain ⟨hi, -⟩ := List.getElem?_eq_some_iff.mp hs
        rcases hc ht with h1 | h1
        · exact .inl ⟨i, s', by rw [List.getElem?_append_left (by simpa using hi)]; simp [hi], h1⟩
        · exact .inr ⟨x, by simp, h1⟩
      · obtain ⟨hj', -⟩ := List.getElem?_eq_some_iff.mp hj
        exact .inl ⟨j, t, by rw [List.getElem?_append_left (by simpa using hj'), getElem?_set_ne' _ hij]; exact hj, ht⟩
    · exact .inr ⟨y, List.mem_append_left _ hy, hy'⟩

theorem aw_plain {l : List Rec} {x : Rec} (h : plain x.ev.op = true) : aw (l ++ [x]) = aw l := by
  unfold aw; rw [awaiting_plain h]

theorem count_plain {tr : List Rec} {x : Rec} (h : plain x.ev.op = true) :
    stores (tr ++ [x]) + answers (receives tr) + aw tr = stores tr + answers (receives (tr ++ [x])) + aw (tr ++ [x]) := by
  rw [aw_plain h, receives_plain h, stores_append, if_neg (by intro h'; rw [h'] at h; cases h)]
  omega

/-- A step that changes neither the state, nor the lock, nor what was received, drawn and stored. -/
theorem Inv.idle {c cm : Nat} {sh sh' : Shared} {tr : List Rec} {ss : List G} (h : Inv c cm 0 sh tr ss) {i : Nat} {s : G}
    (hs : ss[i]? = some s) (s' : G) (gs : List G) (x : Rec) (ho : Opens sh') (he : ∀ e, x.ev.op ≠ .sendErr e)
    (hpl : plain x.ev.op = true) (hle : x.ev.op ≠ .waitLeave)
    (ht : tokN s' + tot tokN gs = tokN s) (hm : monN s' + tot monN gs = monN s) (ha : mainN s' + tot mainN gs = mainN s)
    (hb : beatN s' + tot beatN gs = beatN s) (hp : pulseN s' + tot pulseN gs + ackN s = pulseN s + ackN s' + tot ackN gs)
    (hw : napN s' + tot napN gs ≤ napN s)
    (h1 : sh'.st = sh.st) (h2 : sh'.locked = sh.locked) (h3 : sh'.handed = sh.handed)
    (hn : Fact sh tr s') (hg : ∀ t ∈ gs, Fact sh tr t)
    (hc : isOpening s = true → isOpening s' = true ∨ x.ev = ⟨.opened .conn, ()⟩) :
    Inv c cm 0 sh' (tr ++ [x]) (ss.set i s' ++ gs) := by
  have key : ∀ t, Fact sh tr t → Fact sh' (tr ++ [x]) t := fun t hf =>
    hf.same h1 h2 h3 (receives_plain hpl) (.inr ⟨noted_plain hpl, drawn_plain hpl⟩)
  refine h.step hs s' gs x ho he (by omega) hm (by omega) hb ?_ hw (fun h => absurd h hle) (count_plain hpl) ?_ (key _ hn) (fun t ht => key _ (hg t ht)) hc
  · rw [aw_plain hpl]; omega
  · intro j t _ _ hf; exact key t hf

/-- A step of the goroutine that can move the connection on. -/
theorem Inv.move {cm cm' : Nat} {sh sh' : Shared} {tr : List Rec} {ss : List G} (h : Inv 1 cm 0 sh tr ss) {i : Nat} {s : G}
    (hs : ss[i]? = some s) (s' : G) (gs : List G) (x : Rec) (ho : Opens sh') (he : ∀ e, x.ev.op ≠ .sendErr e) (c' : Nat)
    (h0 : s.tok = true) (hle : x.ev.op ≠ .waitLeave)
    (ht : tokN s' + tot tokN gs = c') (hm : monN s' + tot monN gs = monN s) (ha : mainN s' + tot mainN gs + cm = cm')
    (hb : beatN s' + tot beatN gs = 0)
    (hp : ackN s + aw tr = ackN s' + tot ackN gs + aw (tr ++ [x]))
    (hk : stores (tr ++ [x]) + answers (receives tr) + aw tr = stores tr + answers (receives (tr ++ [x])) + aw (tr ++ [x]))
    (hn : Fact sh' (tr ++ [x]) s') (hg : ∀ t ∈ gs, Fact sh' (tr ++ [x]) t) :
    Inv c' cm' 0 sh' (tr ++ [x]) (ss.set i s' ++ gs) := by
  have hts : tokN s = 1 := by simp [tokN, h0]
  have hb0 : ∀ t, beatN t = 0 → pulseN t = 0 ∧ napN t = 0 := by
    intro t h; cases t <;> first | exact ⟨rfl, rfl⟩ | cases h
  have hs0 : beatN s = 0 := by cases s <;> first | rfl | cases h0
  have hbg : tot beatN gs = 0 := by omega
  have hall : ∀ t ∈ gs, beatN t = 0 := fun t ht => by
    obtain ⟨k, hk⟩ := List.getElem?_of_mem ht
    have := tot_ge beatN hk
    omega
  have hpg : tot pulseN gs = 0 := Keep.tot_zero_of fun t ht => (hb0 t (hall t ht)).1
  have hng : tot napN gs = 0 := Keep.tot_zero_of fun t ht => (hb0 t (hall t ht)).2
  have h1 := hb0 s' (by omega)
  have h2 := hb0 s hs0
  refine h.step hs s' gs x ho he (by omega) hm ?_ (by omega) (by omega) (by omega) (fun h => absurd h hle) hk ?_ hn hg ?_
  · have : mainN s = 0 := by cases s <;> first | rfl | cases h0
    omega
  · intro j t hj ht hf
    exact hf.mono (tok_zero h.tok rfl (Ne.symm hj) hs h0 ht)
  · intro h'; cases s <;> first | (cases h0; done) | cases h'

theorem Inv.move1 {sh sh' : Shared} {tr : List Rec} {ss : List G} {cm : Nat} (h : Inv 1 cm 0 sh tr ss) {i : Nat} {s : G}
    (hs : ss[i]? = some s) (s' : G) (x : Rec) (ho : Opens sh') (he : ∀ e, x.ev.op ≠ .sendErr e)
    (h0 : s.tok = true) (h0' : s'.tok = true) (hm : s'.mon = s.mon) (hpl : plain x.ev.op = true) (hle : x.ev.op ≠ .waitLeave)
    (ha : ackN s = ackN s') (hn : Fact sh' tr s') : Inv 1 cm 0 sh' (tr ++ [x]) (ss.set i s' ++ []) :=
  h.move hs s' [] x ho he 1 h0 hle (by simp [tokN, h0', tot]) (by simp [monN, hm, tot])
    (by have : mainN s' = 0 := by (cases s' <;> first | rfl | cases h0')
        rw [this]; simp [tot])
    (by have : beatN s' = 0 := by (cases s' <;> first | rfl | cases h0')
        rw [this]; simp [tot])
    (by rw [aw_plain hpl, ha]; simp [tot]) (count_plain hpl)
    (hn.same rfl rfl rfl (receives_plain hpl) (.inr ⟨noted_plain hpl, drawn_plain hpl⟩)) (by intro t h; cases h)

/-- Somebody can move the connection on. -/
theorem Inv.holder {cm cp : Nat} {sh : Shared} {tr : List Rec} {ss : List G} (h : Inv 1 cm cp sh tr ss) :
    ∃ (i : Nat) (s : G), ss[i]? = some s ∧ s.tok = true := by
  have h1 := h.tok
  by_cases hx : ∃ s ∈ ss, s.tok = true
  · obtain ⟨s, hs, ht⟩ := hx
    obtain ⟨i, hi⟩ := List.getElem?_of_mem hs
    exact ⟨i, s, hi, ht⟩
  · have : tot tokN ss = 0 := Keep.tot_zero_of fun s hs => by
      have : s.tok = false := by
        cases h' : s.tok with
        | false => rfl
        | true => exact (hx ⟨s, hs, h'⟩).elim
      simp [tokN, this]
    omega

theorem Inv.state {cm cp : Nat} {sh : Shared} {tr : List Rec} {ss : List G} (h : Inv 1 cm cp sh tr ss) :
    sh.st = stageAt (receives tr).length ∨ sh.st = stageAt ((receives tr).length - 1) := by
  obtain ⟨i, s, hi, ht⟩ := h.holder
  have hf := h.fact i s hi
  cases s <;> simp only [G.tok, Fact] at ht hf <;> first
    | (cases ht; done)
    | exact .inr hf.2.1
    | exact .inl (by rw [hf.2.1, hf.1]; rfl)
    | exact .inl (by rw [hf.2.1, ← hf.1])
    | exact .inl hf.1

/-- Prepares a heartbeat. -/
def prep : G → Bool
  | .beat | .drew _ | .posted _ => true
  | _ => false

/-- While a heartbeat is being prepared, no answer is waited for or handled. -/
theorem Inv.preparing {c cm : Nat} {sh : Shared} {tr : List Rec} {ss : List G} (h : Inv c cm 0 sh tr ss) {i : Nat}
    {s : G} (hs : ss[i]? = some s) (hp : prep s = true) : aw tr = 0 ∧ ∀ t ∈ ss, ackN t = 0 := by
  have hz : tot pulseN ss = 0 := Keep.tot_zero_of fun t ht => by
    obtain ⟨j, hj⟩ := List.getElem?_of_mem ht
    by_cases hij : i = j
    · subst hij; rw [hs] at hj; cases hj; cases s <;> first | rfl | cases hp
    · have := tot_ge_two beatN hij hs hj
      have := h.beat
      have hb : beatN s = 1 := by cases s <;> first | rfl | cases hp
      cases t <;> first | rfl | (simp only [beatN] at *; omega)
  have := h.pulse
  refine ⟨by omega, fun t ht => ?_⟩
  obtain ⟨j, hj⟩ := List.getElem?_of_mem ht
  have := tot_ge ackN hj
  omega

theorem fits_user {g : Gor} {s : G} (h : Fits g s) (hs : s ≠ .off) : (ofUser g = true ↔ s = .free ∨ s = .close) ∧ (s = .close → g = .api .close) := by
  cases g with
  | api c => cases c <;> simp only [Fits] at h <;> first | (subst h; simp [ofUser]) | (cases s <;> simp_all [Fits, ofUser])
  | packet b => cases s <;> simp_all [Fits, ofUser]
  | _ => cases s <;> simp_all [Fits, ofUser, G.mon]

end M3.Conn.Pulse
