import Verif.Lemmas.Conn.Calm

/- The invariant of sessions without disturbances. -/

set_option autoImplicit false
set_option linter.unusedSimpArgs false

namespace M3.Conn.Calm

open Spec

theorem expected {m : Mode} {i : Nat} {b : Bytes} (h : expectedAt m i b) :
    ∃ k, kindOf b = some k ∧ before k = stageAt i ∧ after k = stageAt (i + 1) ∧ (k = .data → 2 ≤ i) := by
  match i with
  | 0 =>
    cases m <;> simp only [expectedAt] at h
    · exact ⟨.aspUpAck, by simp only [kindOf, h], rfl, rfl, fun h => by cases h⟩
    · exact ⟨.aspUp, by simp only [kindOf, h], rfl, rfl, fun h => by cases h⟩
  | 1 =>
    cases m <;> simp only [expectedAt] at h
    · exact ⟨.aspActiveAck, by simp only [kindOf, h], rfl, rfl, fun h => by cases h⟩
    · exact ⟨.aspActive, by simp only [kindOf, h], rfl, rfl, fun h => by cases h⟩
  | i + 2 =>
    rcases h with ⟨pd, h⟩ | h | h | h
    · obtain ⟨d, p, h1, h2, -, h3, h4⟩ := carries_data h
      exact ⟨.data, by simp [kindOf, h1, h2, full, h3, h4], rfl, rfl, fun _ => by omega⟩
    · exact ⟨.heartbeat, by simp only [kindOf, h], rfl, rfl, fun _ => by omega⟩
    · exact ⟨.error, by simp only [kindOf, h], rfl, rfl, fun _ => by omega⟩
    · exact ⟨.notify, by simp only [kindOf, h], rfl, rfl, fun _ => by omega⟩

/-- What is known of the shared state from the role of a goroutine. -/
def Fact (sh : Shared) (rs : List Bytes) : G → Prop
  | .off => False
  | .dat => 3 ≤ rs.length
  | .start => rs = [] ∧ sh.st = .down ∧ sh.locked = false ∧ sh.handed = false
  | .pkt k => (∃ rs' b, rs = rs' ++ [b] ∧ kindOf b = some k) ∧ sh.st = stageAt (rs.length - 1) ∧ sh.locked = false ∧
      sh.handed = decide (3 ≤ rs.length)
  | .pktd k => (∃ rs' b, rs = rs' ++ [b] ∧ kindOf b = some k) ∧ sh.st = stageAt (rs.length - 1) ∧ sh.locked = false ∧
      sh.handed = decide (3 ≤ rs.length)
  | .raw b => (∃ rs', rs = rs' ++ [b]) ∧ sh.st = stageAt (rs.length - 1) ∧ sh.locked = false ∧ sh.handed = decide (3 ≤ rs.length)
  | .got s => s = stageAt rs.length ∧ sh.st = stageAt (rs.length - 1) ∧ sh.locked = false ∧ sh.handed = decide (3 ≤ rs.length)
  | .lckd s => s = stageAt rs.length ∧ sh.st = stageAt (rs.length - 1) ∧ sh.locked = true ∧ sh.handed = decide (3 ≤ rs.length)
  | .prev s p => s = stageAt rs.length ∧ sh.st = stageAt (rs.length - 1) ∧ sh.locked = true ∧ sh.handed = decide (3 ≤ rs.length) ∧ p = sh.st
  | .upd s p => s = stageAt rs.length ∧ sh.st = s ∧ sh.locked = true ∧ sh.handed = decide (p = .active) ∧ (p = .active → s = .active)
  | .updd s _ => s = stageAt rs.length ∧ sh.st = s ∧ sh.locked = true ∧ sh.handed = false ∧ s ≠ .active
  | .ready => sh.st = stageAt rs.length ∧ sh.locked = false ∧ sh.handed = decide (2 ≤ rs.length)
  | _ => True

def tokN (s : G) : Nat := if s.tok then 1 else 0
def monN (s : G) : Nat := if s.mon then 1 else 0
def mainN : G → Nat
  | .main => 1
  | _ => 0

structure Opens (sh : Shared) : Prop where
  crashed : sh.crashed = false
  est : sh.estClosed = false
  ack : sh.ackClosed = false
  data : sh.dataClosed = false
  sctp : sh.sctpClosed = false

def isOpening : G → Bool
  | .main | .opened => true
  | _ => false

structure Inv (c cm : Nat) (sh : Shared) (tr : List Rec) (ss : List G) : Prop where
  opens : Opens sh
  quiet : ∀ x ∈ tr, ∀ e, x.ev.op ≠ .sendErr e
  fact : ∀ (i : Nat) (s : G), ss[i]? = some s → Fact sh (receives tr) s
  tok : tot tokN ss = c
  mon : tot monN ss = 1
  main : tot mainN ss = cm
  conn : (∃ (i : Nat) (s : G), ss[i]? = some s ∧ isOpening s = true) ∨ ∃ x ∈ tr, x.ev = ⟨.opened .conn, ()⟩

def Clean (m : Mode) (sh : Shared) (tr : List Rec) : Prop := Undisturbed m ⟨sh, [], tr⟩

def I (m : Mode) (sh : Shared) (tr : List Rec) (ss : List G) : Prop :=
  sh.info = ⟨3, 0⟩ ∧ (Clean m sh tr → Inv 1 (if sh.handed then 0 else 1) sh tr ss)

theorem orderly_prefix {m : Mode} {a b : List Bytes} (h : Orderly m (a ++ b)) : Orderly m a := fun i raw hi =>
  h i raw (by rw [List.getElem?_append_left (List.getElem?_eq_some_iff.mp hi).1]; exact hi)

theorem Clean.before {m : Mode} {sh sh' : Shared} {tr xs : List Rec} (h : Clean m sh' (tr ++ xs))
    (hc : sh'.ctxDone = false → sh.ctxDone = false) : Clean m sh tr := by
  refine ⟨hc h.ctx, ?_, fun x hx => h.user x (List.mem_append_left _ hx), fun x hx => h.calm x (List.mem_append_left _ hx)⟩
  have := h.peer
  simp only [Flow.receives_append] at this
  exact orderly_prefix this

theorem Clean.last {m : Mode} {sh : Shared} {tr : List Rec} (h : Clean m sh tr) {rs : List Bytes} {b : Bytes}
    (hr : receives tr = rs ++ [b]) : expectedAt m rs.length b := h.peer _ _ (by
  show (receives tr)[rs.length]? = _
  rw [hr]; simp)

theorem Fact.mono {sh sh' : Shared} {rs l : List Bytes} {t : G} (ht : t.tok = false) (h : Fact sh rs t) : Fact sh' (rs ++ l) t := by
  cases t <;> first | exact h | (cases ht; done) | skip
  simp only [Fact, List.length_append] at h ⊢
  omega

theorem Fact.same {sh sh' : Shared} {rs : List Bytes} {t : G} (h1 : sh'.st = sh.st) (h2 : sh'.locked = sh.locked)
    (h3 : sh'.handed = sh.handed) (h : Fact sh rs t) : Fact sh' rs t := by
  cases t <;> simp only [Fact, h1, h2, h3] at h ⊢ <;> exact h

theorem tok_zero {c : Nat} {s : G} {ss : List G} (hc : tot tokN ss = c) (hc1 : c = 1) {i j : Nat} (hij : i ≠ j) (hs : ss[i]? = some s)
    (h : s.tok = true) {t : G} (ht : ss[j]? = some t) : t.tok = false := by
  have := tot_ge_two tokN hij hs ht
  have h1 : tokN s = 1 := by simp [tokN, h]
  cases h2 : t.tok with
  | false => rfl
  | true =>
    have : tokN t = 1 := by simp [tokN, h2]
    omega

theorem Inv.step {c cm c' cm' : Nat} {sh sh' : Shared} {tr : List Rec} {ss : List G} (h : Inv c cm sh tr ss) {i : Nat} {s : G}
    (hs : ss[i]? = some s) (s' : G) (gs : List G) (x : Rec) (ho : Opens sh') (he : ∀ e, x.ev.op ≠ .sendErr e)
    (ht : tokN s' + tot tokN gs + c = tokN s + c') (hm : monN s' + tot monN gs = monN s)
    (ha : mainN s' + tot mainN gs + cm = mainN s + cm')
    (hf : ∀ (j : Nat) (t : G), j ≠ i → ss[j]? = some t → Fact sh (receives tr) t → Fact sh' (receives (tr ++ [x])) t)
    (hn : Fact sh' (receives (tr ++ [x])) s') (hg : ∀ t ∈ gs, Fact sh' (receives (tr ++ [x])) t)
    (hc : isOpening s = true → isOpening s' = true ∨ x.ev = ⟨.opened .conn, ()⟩) :
    Inv c' cm' sh' (tr ++ [x]) (ss.set i s' ++ gs) where
  opens := ho
  quiet y hy := by
    rcases List.mem_append.mp hy with hy | hy
    · exact h.quiet y hy
    · rw [List.mem_singleton.mp hy]; exact he
  fact j t hj := by
    rcases mem_set_cases hs hj with ⟨-, rfl⟩ | ⟨hji, hj⟩ | hj
    · exact hn
    · exact hf j t hji hj (h.fact j t hj)
    · exact hg t hj
  tok := by
    have := tot_set tokN s' hs
    have := h.tok
    rw [tot_append]; omega
  mon := by
    have := tot_set monN s' hs
    have := h.mon
    rw [tot_append]; omega
  main := by
    have := tot_set mainN s' hs
    have := h.main
    rw [tot_append]; omega
  conn := by
    rcases h.conn with ⟨j, t, hj, ht⟩ | ⟨y, hy, hy'⟩
    · by_cases hij : i = j
      · subst hij
        rw [hs] at hj; cases hj
        obtain ⟨hi, -⟩ := List.getElem?_eq_some_iff.mp hs
        rcases hc ht with h1 | h1
        · exact .inl ⟨i, s', by rw [List.getElem?_append_left (by simpa using hi)]; simp [hi], h1⟩
        · exact .inr ⟨x, by simp, h1⟩
      · obtain ⟨hj', -⟩ := List.getElem?_eq_some_iff.mp hj
        exact .inl ⟨j, t, by rw [List.getElem?_append_left (by simpa using hj'), getElem?_set_ne' _ hij]; exact hj, ht⟩
    · exact .inr ⟨y, List.mem_append_left _ hy, hy'⟩

/-- A step that changes neither the state, nor the lock, nor what was received. -/
theorem Inv.idle {c cm : Nat} {sh sh' : Shared} {tr : List Rec} {ss : List G} (h : Inv c cm sh tr ss) {i : Nat} {s : G}
    (hs : ss[i]? = some s) (s' : G) (gs : List G) (x : Rec) (ho : Opens sh') (he : ∀ e, x.ev.op ≠ .sendErr e)
    (ht : tokN s' + tot tokN gs = tokN s) (hm : monN s' + tot monN gs = monN s) (ha : mainN s' + tot mainN gs = mainN s)
    (h1 : sh'.st = sh.st) (h2 : sh'.locked = sh.locked) (h3 : sh'.handed = sh.handed) (hr : receives [x] = [])
    (hn : Fact sh (receives tr) s') (hg : ∀ t ∈ gs, Fact sh (receives tr) t)
    (hc : isOpening s = true → isOpening s' = true ∨ x.ev = ⟨.opened .conn, ()⟩) :
    Inv c cm sh' (tr ++ [x]) (ss.set i s' ++ gs) := by
  have hr' : receives (tr ++ [x]) = receives tr := by rw [Flow.receives_append, hr, List.append_nil]
  refine h.step hs s' gs x ho he (by omega) hm (by omega) ?_ ?_ ?_ hc
  · intro j t _ _ hf
    rw [hr']; exact hf.same h1 h2 h3
  · rw [hr']; exact hn.same h1 h2 h3
  · intro t ht
    rw [hr']; exact (hg t ht).same h1 h2 h3

/-- A step of the goroutine that can move the connection on. -/
theorem Inv.move {cm cm' : Nat} {sh sh' : Shared} {tr : List Rec} {ss : List G} (h : Inv 1 cm sh tr ss) {i : Nat} {s : G}
    (hs : ss[i]? = some s) (s' : G) (gs : List G) (x : Rec) (ho : Opens sh') (he : ∀ e, x.ev.op ≠ .sendErr e) (c' : Nat)
    (h0 : s.tok = true)
    (ht : tokN s' + tot tokN gs = c') (hm : monN s' + tot monN gs = monN s) (ha : mainN s' + tot mainN gs + cm = cm')
    (hn : Fact sh' (receives tr ++ receives [x]) s') (hg : ∀ t ∈ gs, Fact sh' (receives tr ++ receives [x]) t) :
    Inv c' cm' sh' (tr ++ [x]) (ss.set i s' ++ gs) := by
  rw [← Flow.receives_append] at hn hg
  have hts : tokN s = 1 := by simp [tokN, h0]
  refine h.step hs s' gs x ho he (by omega) hm ?_ ?_ hn hg ?_
  · have : mainN s = 0 := by cases s <;> first | rfl | cases h0
    omega
  · intro j t hj ht hf
    have := tok_zero h.tok rfl (Ne.symm hj) hs h0 ht
    rw [Flow.receives_append]
    exact hf.mono this
  · intro h'; cases s <;> first | (cases h0; done) | cases h'

theorem Inv.move1 {sh sh' : Shared} {tr : List Rec} {ss : List G} {cm : Nat} (h : Inv 1 cm sh tr ss) {i : Nat} {s : G}
    (hs : ss[i]? = some s) (s' : G) (x : Rec) (ho : Opens sh') (he : ∀ e, x.ev.op ≠ .sendErr e)
    (h0 : s.tok = true) (h0' : s'.tok = true) (hm : s'.mon = s.mon) (hr : receives [x] = [])
    (hn : Fact sh' (receives tr) s') : Inv 1 cm sh' (tr ++ [x]) (ss.set i s' ++ []) :=
  h.move hs s' [] x ho he 1 h0 (by simp [tokN, h0', tot]) (by simp [monN, hm, tot])
    (by have : mainN s' = 0 := by (cases s' <;> first | rfl | cases h0')
        rw [this]; simp [tot]) (by rw [hr, List.append_nil]; exact hn) (by intro t h; cases h)

/-- Somebody can move the connection on. -/
theorem Inv.holder {cm : Nat} {sh : Shared} {tr : List Rec} {ss : List G} (h : Inv 1 cm sh tr ss) :
    ∃ (i : Nat) (s : G), ss[i]? = some s ∧ s.tok = true := by
  have h1 := h.tok
  by_cases hx : ∃ s ∈ ss, s.tok = true
  · obtain ⟨s, hs, ht⟩ := hx
    obtain ⟨i, hi⟩ := List.getElem?_of_mem hs
    exact ⟨i, s, hi, ht⟩
  · have : tot tokN ss = 0 := Keep.tot_zero_of fun s hs => by
      have : s.tok = false := by
        cases h' : s.tok with
        | false => rfl
        | true => exact (hx ⟨s, hs, h'⟩).elim
      simp [tokN, this]
    omega

theorem stage_active {n : Nat} (h : 2 ≤ n) : stageAt n = .active := by
  match n, h with
  | n + 2, _ => rfl

theorem Inv.state {cm : Nat} {sh : Shared} {tr : List Rec} {ss : List G} (h : Inv 1 cm sh tr ss) :
    sh.st = stageAt (receives tr).length ∨ sh.st = stageAt ((receives tr).length - 1) := by
  obtain ⟨i, s, hi, ht⟩ := h.holder
  have hf := h.fact i s hi
  cases s <;> simp only [G.tok, Fact] at ht hf <;> first | (cases ht; done) | skip
  · exact .inl (by rw [hf.2.1, hf.1]; rfl)
  · exact .inr hf.2.1
  · exact .inr hf.2.1
  · exact .inr hf.2.1
  · exact .inr hf.2.1
  · exact .inr hf.2.1
  · exact .inl (by rw [hf.2.1, ← hf.1])
  · exact .inl (by rw [hf.2.1, ← hf.1])
  · exact .inl hf.1
  · exact .inr hf.2.1

theorem info_keep {sh sh' : Shared} {o : Op} {r : Resp o} (h : Exec sh o r sh') : sh'.info = sh.info := by
  cases h <;> rfl

theorem fits_user {g : Gor} {s : G} (h : Fits g s) (hs : s ≠ .off) : (ofUser g = true ↔ s = .free ∨ s = .close) ∧ (s = .close → g = .api .close) := by
  cases g with
  | api c => cases c <;> simp only [Fits] at h <;> first | (subst h; simp [ofUser]) | (cases s <;> simp_all [Fits, ofUser])
  | packet b => cases s <;> simp_all [Fits, ofUser]
  | _ => cases s <;> simp_all [Fits, ofUser, G.mon]

theorem run_inv {E : Env} {m : Mode} {sh sh' : Shared} {tr : List Rec} {ss : List G} {i : Nat} {g : Gor} {s : G} {o : Op} {r : Resp o}
    (h : Inv 1 (if sh.handed then 0 else 1) sh tr ss) (hs : ss[i]? = some s) (hfit : Fits g s) (hok : ok E s o) (hx : Exec sh o r sh')
    (hc : Clean m sh tr) (hc' : Clean m sh' (tr ++ [⟨i, g, o, r⟩])) :
    Inv 1 (if sh'.handed then 0 else 1) sh' (tr ++ [⟨i, g, o, r⟩]) (ss.set i (next s o r) ++ (spawned o).map born) := by
  have hf := h.fact i s hs
  have ho := h.opens
  have hcalm := hc'.calm ⟨i, g, o, r⟩ (by simp)
  have huser := hc'.user ⟨i, g, o, r⟩ (by simp)
  have hu : ∀ b, s ≠ .off → (s ≠ .free → s ≠ .close → ofUser g = b → b = false) := by
    intro b h0 h1 h2 h3
    have := (fits_user hfit h0).1
    cases hb : ofUser g with
    | false => rw [← h3, hb]
    | true => rcases this.mp hb with h | h <;> contradiction
  cases s with
  | off => exact hf.elim
  | over => cases hok
  | close => exact (huser ((fits_user hfit (by simp)).2 rfl)).elim
  | free =>
    cases o <;> first | (cases hok; done) | skip
    all_goals
      have hsh : sh'.st = sh.st ∧ sh'.locked = sh.locked ∧ sh'.handed = sh.handed ∧ Opens sh' := by
        cases hx <;> exact ⟨rfl, rfl, rfl, ho.1, ho.2, ho.3, ho.4, ho.5⟩
      rw [hsh.2.2.1]
      exact h.idle hs _ _ _ hsh.2.2.2 (by intro e h; cases h) rfl rfl rfl hsh.1 hsh.2.1 hsh.2.2.1 rfl trivial (by intro t h; cases h)
        (by intro h; cases h)
  | beat =>
    have hu := hcalm (hu _ (by simp) (by simp) (by simp) rfl)
    have hn : next .beat o r = .beat := by
      cases o <;> first | (cases hok; done) | rfl | skip
      · cases r <;> first | rfl | (cases hu; done)
      · cases r <;> first | rfl | (simp [Ev.calm] at hu; done)
      · cases r <;> first | rfl | (cases hu; done)
    rw [hn]
    cases o <;> first | (cases hok; done) | skip
    all_goals
      have hsh : sh'.st = sh.st ∧ sh'.locked = sh.locked ∧ sh'.handed = sh.handed ∧ Opens sh' := by
        cases hx <;> exact ⟨rfl, rfl, rfl, ho.1, ho.2, ho.3, ho.4, ho.5⟩
      rw [hsh.2.2.1]
      exact h.idle hs _ _ _ hsh.2.2.2 (by intro e h; cases h) rfl rfl rfl hsh.1 hsh.2.1 hsh.2.2.1 rfl trivial (by intro t h; cases h)
        (by intro h; cases h)
  | main =>
    have hu := hcalm (hu _ (by simp) (by simp) (by simp) rfl)
    obtain rfl : o = .estSelect := hok
    cases hx with
    | estClosedRecv h1 => rw [ho.est] at h1; cases h1
    | estTimeout => simp [Ev.calm] at hu
  | opened =>
    obtain rfl : o = .opened .conn := hok
    cases hx
    exact h.idle hs _ _ _ ho (by intro e h; cases h) rfl rfl rfl rfl rfl rfl rfl trivial (by intro t h; cases h) (fun _ => .inr rfl)
  | dat =>
    have hn : 3 ≤ (receives tr).length := hf
    have ha : sh.st = .active := by
      rcases h.state with h | h <;> rw [h] <;> exact stage_active (by omega)
    cases o <;> first | (cases hok; done) | skip
    · cases hx
      simp only [next, G.seen, ha, if_true]
      exact h.idle hs _ _ _ ho (by intro e h; cases h) rfl rfl rfl rfl rfl rfl rfl hf (by intro t h; cases h) (by intro h; cases h)
    · cases hx with
      | sendData h1 h2 =>
        exact h.idle hs _ _ _ ⟨ho.1, ho.2, ho.3, ho.4, ho.5⟩ (by intro e h; cases h) rfl rfl rfl rfl rfl rfl rfl trivial
          (by intro t h; cases h) (by intro h; cases h)
      | sendDataCtx h1 => rw [show sh.ctxDone = false from hc.ctx] at h1; cases h1
  | wait =>
    rcases hok with rfl | rfl
    · cases hx with
      | monCtx h1 => rw [show sh.ctxDone = false from hc.ctx] at h1; cases h1
    · cases hx
      exact h.idle hs _ _ _ ho (by intro e h; cases h) rfl rfl rfl rfl rfl rfl rfl trivial (by simp [spawned, born, Fact]) (by intro h; cases h)
  | start =>
    obtain rfl : o = .sendState .down := hok
    cases hx
  | pkt k =>
    have hu := hcalm (hu _ (by simp) (by simp) (by simp) rfl)
    have hf' := hf
    obtain ⟨⟨rs, b, hr, hk⟩, h1, h2, h3⟩ := hf'
    obtain ⟨k', hk', hb, ha, hd⟩ := expected (hc.last hr)
    rw [hk] at hk'; cases hk'
    have hlen : (receives tr).length = rs.length + 1 := by rw [hr]; simp
    cases o <;> first | (cases hok; done) | skip
    case state =>
      cases hx
      have : sh.st = before k := by rw [h1, hb, hlen]; rfl
      simp only [next, G.seen, this, if_true]
      exact h.idle hs _ _ _ ho (by intro e h; cases h) rfl rfl rfl rfl rfl rfl rfl hf (by intro t h; cases h) (by intro h; cases h)
    case sendState s => cases hx
    case ctxDone =>
      cases hx
      have : sh.ctxDone = false := hc.ctx
      simp only [next, this, Bool.false_eq_true, if_false]
      exact h.idle hs _ _ _ ho (by intro e h; cases h) rfl rfl rfl rfl rfl rfl rfl hf (by intro t h; cases h) (by intro h; cases h)
    case info =>
      cases hx
      exact h.idle hs _ _ _ ho (by intro e h; cases h) rfl rfl rfl rfl rfl rfl rfl hf (by intro t h; cases h) (by intro h; cases h)
    case write =>
      cases hx
      · exact h.idle hs _ _ _ ho (by intro e h; cases h) rfl rfl rfl rfl rfl rfl rfl hf (by intro t h; cases h) (by intro h; cases h)
      · cases hu
    case spawn g' =>
      obtain ⟨rfl, m', rfl, hm⟩ := hok
      cases hx
      have := hd rfl
      refine h.idle hs _ _ _ ho (by intro e h; cases h) ?_ ?_ ?_ rfl rfl rfl rfl hf ?_ (by intro h; cases h) <;>
        simp [spawned, born, hm, next, G.passed, tokN, monN, mainN, tot, G.tok, G.mon, Fact]
      omega
  | pktd k =>
    obtain ⟨⟨rs, b, hr, hk⟩, h1, h2, h3⟩ := (show Fact sh (receives tr) (.pkt k) from hf)
    obtain ⟨k', hk', hb, ha, hd⟩ := expected (hc.last hr)
    rw [hk] at hk'; cases hk'
    have hlen : (receives tr).length = rs.length + 1 := by rw [hr]; simp
    cases o <;> first | (cases hok; done) | skip
    case state =>
      cases hx
      have : sh.st = before k := by rw [h1, hb, hlen]; rfl
      simp only [next, G.seen, this, if_true]
      exact h.idle hs _ _ _ ho (by intro e h; cases h) rfl rfl rfl rfl rfl rfl rfl hf (by intro t h; cases h) (by intro h; cases h)
    case sendState s => cases hx
  | got s =>
    obtain rfl : o = .lock := hok
    cases hx
    obtain ⟨h1, h2, h3, h4⟩ := hf
    exact h.move1 hs (.lckd s) ⟨i, g, .lock, ()⟩ ⟨ho.1, ho.2, ho.3, ho.4, ho.5⟩ (by intro e h; cases h) rfl rfl rfl rfl ⟨h1, h2, rfl, h4⟩
  | lckd s =>
    obtain rfl : o = .getSt := hok
    cases hx
    obtain ⟨h1, h2, h3, h4⟩ := hf
    exact h.move1 hs (.prev s sh.st) ⟨i, g, .getSt, sh.st⟩ ho (by intro e h; cases h) rfl rfl rfl rfl ⟨h1, h2, h3, h4, rfl⟩
  | prev s p =>
    obtain rfl : o = .putSt s := hok
    cases hx
    obtain ⟨h1, h2, h3, h4, h5⟩ := hf
    refine h.move1 hs (.upd s p) ⟨i, g, .putSt s, ()⟩ ⟨ho.1, ho.2, ho.3, ho.4, ho.5⟩ (by intro e h; cases h) rfl rfl rfl rfl
      ⟨h1, rfl, h3, ?_, ?_⟩
    · show sh.handed = _
      rw [h4, h5, h2]
      match (receives tr).length with
      | 0 => rfl
      | 1 => rfl
      | 2 => rfl
      | n + 3 => simp [stageAt]
    · rw [h1, h5, h2]
      match (receives tr).length with
      | 0 => intro h; cases h
      | 1 => intro h; cases h
      | 2 => intro h; cases h
      | n + 3 => intro _; rfl
  | upd s p =>
    have hu := hcalm (hu _ (by simp) (by simp) (by simp) rfl)
    obtain ⟨h1, h2, h3, h4, h5⟩ := hf
    cases o <;> first | (cases hok; done) | skip
    case sendEst => cases hx
    case unlock =>
      cases hx
      refine h.move1 hs .ready ⟨i, g, .unlock, ()⟩ ⟨ho.1, ho.2, ho.3, ho.4, ho.5⟩ (by intro e h; cases h) rfl rfl rfl rfl
        ⟨h2.trans h1, rfl, ?_⟩
      have hok : s = .active → p = .active := hok.2
      show sh.handed = _
      rw [h4]
      have : p = .active ↔ 2 ≤ (receives tr).length := by
        rw [show p = .active ↔ s = .active from ⟨h5, hok⟩, h1]
        match (receives tr).length with
        | 0 => simp [stageAt]
        | 1 => simp [stageAt]
        | n + 2 => simp [stageAt]
      simpa using this
    case broadcast =>
      cases hx
      exact h.idle hs _ _ _ ⟨ho.1, ho.2, ho.3, ho.4, ho.5⟩ (by intro e h; cases h) rfl rfl rfl rfl rfl rfl rfl ⟨h1, h2, h3, h4, h5⟩
        (by intro t h; cases h) (by intro h; cases h)
    case info =>
      cases hx
      exact h.idle hs _ _ _ ho (by intro e h; cases h) rfl rfl rfl rfl rfl rfl rfl ⟨h1, h2, h3, h4, h5⟩
        (by intro t h; cases h) (by intro h; cases h)
    case write b' _ =>
      have hb : entry E s = some b' := hok
      have hsa : s ≠ .active := by rintro rfl; cases hb
      cases hx
      · exact h.idle hs _ _ _ ho (by intro e h; cases h) rfl rfl rfl rfl rfl rfl rfl
          ⟨h1, h2, h3, by rw [h4]; exact decide_eq_false fun h => hsa (h5 h), hsa⟩ (by intro t h; cases h) (by intro h; cases h)
      · cases hu
  | updd s p =>
    obtain rfl : o = .unlock := hok
    obtain ⟨h1, h2, h3, h4, h5⟩ := hf
    cases hx
    refine h.move1 hs .ready ⟨i, g, .unlock, ()⟩ ⟨ho.1, ho.2, ho.3, ho.4, ho.5⟩ (by intro e h; cases h) rfl rfl rfl rfl
      ⟨h2.trans h1, rfl, ?_⟩
    show sh.handed = _
    rw [h4]
    refine (decide_eq_false fun h => h5 ?_).symm
    rw [h1]; exact stage_active h
  | ready =>
    have hu := hcalm (hu _ (by simp) (by simp) (by simp) rfl)
    obtain rfl : o = .read 1500 := hok
    obtain ⟨h1, h2, h3⟩ := hf
    have key : ∀ (sh' : Shared) (d : Bytes), Opens sh' → sh'.st = sh.st → sh'.locked = sh.locked → sh'.handed = sh.handed →
        Inv 1 (if sh'.handed then 0 else 1) sh' (tr ++ [⟨i, g, .read 1500, some d⟩])
          (ss.set i (next .ready (.read 1500) (some d)) ++ (spawned (.read 1500)).map born) := by
      intro sh' d ho' e1 e2 e3
      refine h.move (sh' := sh') hs (.raw d) [] ⟨i, g, .read 1500, some d⟩ ho' (by intro e h; cases h) _ rfl rfl rfl (by rw [e3]; exact Nat.zero_add _) ?_ (by intro t h; cases h)
      show Fact sh' (receives tr ++ [d]) (.raw d)
      refine ⟨⟨_, rfl⟩, ?_, by rw [e2, h2], ?_⟩
      · rw [e1, h1]; simp
      · rw [e3, h3]; simp
    cases hx with
    | read => exact key _ _ ⟨ho.1, ho.2, ho.3, ho.4, ho.5⟩ rfl rfl rfl
    | readPart => exact key _ _ ⟨ho.1, ho.2, ho.3, ho.4, ho.5⟩ rfl rfl rfl
    | readFail => cases hu
  | raw b =>
    obtain rfl : o = .spawn (.packet b) := hok
    cases hx
    obtain ⟨⟨rs, hr⟩, h1, h2, h3⟩ := hf
    obtain ⟨k, hk, hb, ha, hd⟩ := expected (hc.last hr)
    refine h.move hs _ _ _ ho (by intro e h; cases h) _ rfl ?_ ?_ ?_ trivial ?_ <;>
      simp [spawned, born, hk, next, G.passed, tokN, monN, mainN, tot, G.tok, G.mon, Fact]
    simp only [receives, received?, List.filterMap_cons, List.filterMap_nil, List.append_nil]
    exact ⟨⟨rs, b, hr, hk⟩, h1, h2, h3⟩

theorem heard_stage (n : Nat) : G.heard .wait (.state (stageAt n)) = .got (stageAt n) := by
  match n with
  | 0 => rfl
  | 1 => rfl
  | n + 2 => rfl

theorem sync_inv {E : Env} {m : Mode} {sh sh' : Shared} {tr : List Rec} {ss : List G} {i j : Nat} {gi gj : Gor} {si sj : G} {oi oj : Op}
    {ri : Resp oi} {rj : Resp oj} (h : Inv 1 (if sh.handed then 0 else 1) sh tr ss) (hij : i ≠ j) (hsi : ss[i]? = some si)
    (hsj : ss[j]? = some sj) (hoi : ok E si oi) (hoj : ok E sj oj) (hx : Sync sh oi ri oj rj sh') (hc : Clean m sh tr) :
    Inv 1 (if sh'.handed then 0 else 1) sh' (tr ++ [⟨i, gi, oi, ri⟩, ⟨j, gj, oj, rj⟩]) ((ss.set i (next si oi ri)).set j (next sj oj rj)) := by
  have hfi := h.fact i si hsi
  have hfj := h.fact j sj hsj
  have ho := h.opens
  have hj' : ∀ s', (ss.set i s' ++ [])[j]? = some sj := by
    intro s'; rw [List.append_nil, getElem?_set_ne' _ hij]; exact hsj
  cases hx with
  | err => cases si <;> first | (cases hoi; done) | exact hfi.elim | (rcases hoi with h | h <;> cases h; done)
  | ack _ => cases si <;> first | (cases hoi; done) | exact hfi.elim | (rcases hoi with h | h <;> cases h; done)
  | est _ =>
    cases sj <;> first | (cases hoj; done) | exact hfj.elim | (rcases hoj with h | h <;> cases h; done) | skip
    cases si <;> first | (cases hoi; done) | exact hfi.elim | (rcases hoi with h | h <;> cases h; done) | skip
    rename_i s p
    obtain ⟨rfl, hp⟩ : s = .active ∧ p ≠ .active := hoi
    obtain ⟨h1, h2, h3, h4, h5⟩ := hfi
    have hh : sh.handed = false := by rw [h4]; simp [hp]
    rw [hh] at h
    have a := h.move1 (sh' := { sh with handed := true }) hsi (.upd .active .active) ⟨i, gi, .sendEst, ()⟩ ⟨ho.1, ho.2, ho.3, ho.4, ho.5⟩
      (by intro e h; cases h) rfl rfl rfl rfl ⟨h1, h2, h3, by simp, fun _ => rfl⟩
    have b := a.step (sh' := { sh with handed := true }) (c' := 1) (cm' := 0) (hj' _) .opened [] ⟨j, gj, .estSelect, .ok⟩ ⟨ho.1, ho.2, ho.3, ho.4, ho.5⟩
      (by intro e h; cases h) rfl rfl rfl (by
        intro k t _ _ hf
        rw [Flow.receives_append]
        simpa only [receives, received?, List.filterMap_cons, List.filterMap_nil, List.append_nil] using hf) trivial (by intro t h; cases h) (fun _ => .inl rfl)
    simpa [next, G.sendEst, G.est] using b
  | state =>
    cases sj <;> first | (cases hoj; done) | exact hfj.elim | skip
    rename_i s
    have key : si.tok = true ∧ si.mon = false ∧ next si (.sendState s) () = .over ∧ Fact sh (receives tr) (.got s) := by
      cases si <;> first | (cases hoi; done) | exact hfi.elim | (rcases hoi with h | h <;> cases h; done) | skip
      · cases hoi
        obtain ⟨h1, h2, h3, h4⟩ := hfi
        refine ⟨rfl, rfl, rfl, ?_, ?_, h3, ?_⟩ <;> rw [h1]
        · rfl
        · exact h2
        · exact h4
      · rename_i k
        obtain rfl : s = after k := hoi.1
        obtain ⟨⟨rs, b, hr, hk⟩, h1, h2, h3⟩ := hfi
        obtain ⟨k', hk', hb, ha, hd⟩ := expected (hc.last hr)
        rw [hk] at hk'; cases hk'
        refine ⟨rfl, rfl, rfl, ?_, h1, h2, h3⟩
        rw [ha, hr]; simp
      · rename_i k
        obtain rfl : s = after k := hoi
        obtain ⟨⟨rs, b, hr, hk⟩, h1, h2, h3⟩ := hfi
        obtain ⟨k', hk', hb, ha, hd⟩ := expected (hc.last hr)
        rw [hk] at hk'; cases hk'
        refine ⟨rfl, rfl, rfl, ?_, h1, h2, h3⟩
        rw [ha, hr]; simp
    obtain ⟨k1, k2, k3, k4⟩ := key
    rw [k3]
    have k5 : next .wait .monSelect (.state s) = .got s := by
      have : s = stageAt (receives tr).length := k4.1
      rw [this]; exact heard_stage _
    rw [k5]
    have a := h.move (sh' := sh) (cm' := if sh.handed then 0 else 1) hsi .over [] ⟨i, gi, .sendState s, ()⟩ ho (by intro e h; cases h) 0 k1 rfl (by rw [monN, monN, k2]; rfl) (Nat.zero_add _)
      trivial (by intro t h; cases h)
    have b := a.step (sh' := sh) (c' := 1) (cm' := if sh.handed then 0 else 1) (hj' _) (.got s) [] ⟨j, gj, .monSelect, .state s⟩ ho
      (by intro e h; cases h) rfl rfl rfl (by
        intro k t _ _ hf
        rw [Flow.receives_append]
        simpa only [receives, received?, List.filterMap_cons, List.filterMap_nil, List.append_nil] using hf)
      (by
        rw [Flow.receives_append, Flow.receives_append]
        simpa only [receives, received?, List.filterMap_cons, List.filterMap_nil, List.append_nil] using k4) (by intro t h; cases h) (by intro h; cases h)
    simpa using b

theorem pres (E : Env) (m : Mode) : Pres (D E) (I m) where
  env sh sh' tr ss h he := by
    obtain ⟨h1, h2⟩ := h
    cases he
    · refine ⟨h1, fun hc => ?_⟩
      have := h2 ⟨hc.1, hc.2, hc.3, hc.4⟩
      exact ⟨⟨this.1.1, this.1.2, this.1.3, this.1.4, this.1.5⟩, this.2, fun i s hs => (this.3 i s hs).same rfl rfl rfl, this.4, this.5, this.6, this.7⟩
    · exact ⟨h1, fun hc => by have := hc.ctx; cases this⟩
    · refine ⟨h1, fun hc => ?_⟩
      have := h2 ⟨hc.1, hc.2, hc.3, hc.4⟩
      exact ⟨⟨this.1.1, this.1.2, this.1.3, this.1.4, this.1.5⟩, this.2, fun i s hs => (this.3 i s hs).same rfl rfl rfl, this.4, this.5, this.6, this.7⟩
  call sh tr ss c h _ := by
    obtain ⟨h1, h2⟩ := h
    refine ⟨h1, fun hc => ?_⟩
    have h := h2 hc
    have hb : (D E).born (.api c) = .free ∨ (D E).born (.api c) = .close := by
      cases c <;> first | exact .inl rfl | exact .inr rfl
    generalize (D E).born (.api c) = b at hb
    have hb' : tokN b = 0 ∧ monN b = 0 ∧ mainN b = 0 ∧ Fact sh (receives tr) b := by
      rcases hb with rfl | rfl <;> exact ⟨rfl, rfl, rfl, trivial⟩
    refine ⟨h.opens, h.quiet, ?_, ?_, ?_, ?_, ?_⟩
    · intro i s hs
      by_cases hi : i < ss.length
      · rw [List.getElem?_append_left hi] at hs
        exact h.fact i s hs
      · rw [List.getElem?_append_right (by omega)] at hs
        rw [List.mem_singleton.mp (List.mem_of_getElem? hs)]
        exact hb'.2.2.2
    · rw [tot_append, tot_cons, tot_nil, h.tok, hb'.1]
    · rw [tot_append, tot_cons, tot_nil, h.mon, hb'.2.1]
    · rw [tot_append, tot_cons, tot_nil, h.main, hb'.2.2.1]; rfl
    · rcases h.conn with ⟨i, s, hi, hs⟩ | h
      · exact .inl ⟨i, s, by rw [List.getElem?_append_left (List.getElem?_eq_some_iff.mp hi).1]; exact hi, hs⟩
      · exact .inr h
  run sh sh' tr ss i g s o r h hs hok hx := by
    obtain ⟨h1, h2⟩ := h
    refine ⟨?_, by rw [info_keep hx]; exact h1, fun hc => ?_⟩
    · show may o r
      cases o <;> first | trivial | skip
      cases hx; exact h1
    · have hc0 := hc.before (Keep.ctx_mono hx)
      exact run_inv (h2 hc0) hs hok.1 hok.2 hx hc0 hc
  sync sh sh' tr ss i j gi gj si sj oi oj ri rj h hij hsi hsj hoi hoj hx := by
    obtain ⟨h1, h2⟩ := h
    refine ⟨?_, ?_, ?_, fun hc => ?_⟩
    · show may oi ri
      cases hx <;> trivial
    · show may oj rj
      cases hx <;> trivial
    · cases hx <;> exact h1
    · have hc0 : Clean m sh tr := hc.before (by cases hx <;> exact id)
      exact sync_inv (h2 hc0) hij hsi hsj hoi.2 hoj.2 hx hc0
  crash sh tr ss i g s o h hs hok hx := by
    obtain ⟨h1, h2⟩ := h
    refine ⟨h1, fun hc => ?_⟩
    have h := h2 ⟨hc.1, hc.2, hc.3, hc.4⟩
    have hf := h.fact i s hs
    have ho := h.opens
    cases hx with
    | crash =>
      have := hok.2
      cases s <;> first | exact hf.elim | (cases this; done) | skip
      rcases this with h | h <;> cases h
    | sendEst h => rw [ho.est] at h; cases h
    | sendAck h => rw [ho.ack] at h; cases h
    | sendData h => rw [ho.data] at h; cases h
    | closeEst h => rw [ho.est] at h; cases h
    | closeAck h => rw [ho.ack] at h; cases h
    | closeData h => rw [ho.data] at h; cases h

theorem reach {E : Env} (hE : E.maxStream ≠ 0) (m : Mode) {w : World} (h : Reachable E w) : ∃ ss, (D E).Linked w ss ∧ I m w.sh w.trace ss :=
  Disc.reach (good hE) (pres E m) (by
    refine ⟨rfl, fun _ => ⟨⟨rfl, rfl, rfl, rfl, rfl⟩, by intro x h; (cases h), ?_, rfl, rfl, rfl, .inl ⟨0, .main, rfl, rfl⟩⟩⟩
    intro i s hs
    match i with
    | 0 => cases hs; trivial
    | 1 => cases hs; exact ⟨rfl, rfl, rfl, rfl⟩
    | 2 => cases hs; trivial
    | i + 3 => simp at hs) h

/-- The roles of the goroutines of an undisturbed session. -/
theorem roles {E : Env} (hE : E.maxStream ≠ 0) {m : Mode} {w : World} (h : Reachable E w) (hu : Undisturbed m w) :
    ∃ ss, (D E).Linked w ss ∧ Inv 1 (if w.sh.handed then 0 else 1) w.sh w.trace ss := by
  obtain ⟨ss, hl, hi⟩ := reach hE m h
  exact ⟨ss, hl, hi.2 ⟨hu.1, hu.2, hu.3, hu.4⟩⟩

end M3.Conn.Calm
