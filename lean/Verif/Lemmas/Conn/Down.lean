import Verif.Lemmas.Conn.Halt

/- When the monitor has returned, the state is AspDown. -/

set_option autoImplicit false
set_option linter.unusedSimpArgs false

namespace M3.Conn.Down

open Spec

/-- What the monitor knows about the state. -/
inductive M where
  /-- not the monitor -/
  | other
  | idle
  /-- it holds the lock, the state is this -/
  | saw (s : St)
  /-- it has closed the association -/
  | shut

structure S where
  lock : Bool
  m : M

def ok (s : S) : Op → Prop
  | .lock => s.lock = false
  | .unlock | .getSt => s.lock = true
  | .putSt x => s.lock = true ∧ (s.m = .other → x = .down) ∧ s.m ≠ .shut
  | .sctpClose => s.m = .other ∨ (s.m = .saw .down ∧ s.lock = true)
  | .spawn g => Role.cl g ≠ .monitor
  | _ => True

def next (s : S) : (o : Op) → Resp o → S
  | .lock, _ => ⟨true, s.m⟩
  | .unlock, _ => ⟨false, match s.m with
    | .saw _ => .idle
    | m => m⟩
  | .getSt, x => ⟨s.lock, match s.m with
    | .idle | .saw _ => .saw x
    | m => m⟩
  | .putSt x, _ => ⟨s.lock, match s.m with
    | .idle | .saw _ => .saw x
    | m => m⟩
  | .sctpClose, _ => ⟨s.lock, match s.m with
    | .saw _ => .shut
    | m => m⟩
  | _, _ => s

def born (g : Gor) : S := ⟨false, if Role.cl g = .monitor then .idle else .other⟩

def fin (s : S) : Prop := s.lock = false ∧ (s.m = .other ∨ s.m = .shut)

def D : Disc S where
  start g s := s = born g
  born := born
  ok _ := ok
  fin := fin
  may _ _ _ _ := True
  next _ := next

theorem D_ok {g s o} : D.ok g s o = ok s o := rfl
theorem D_may {g s o r} : D.may g s o r = True := rfl
theorem D_next {g s o r} : D.next g s o r = next s o r := rfl
theorem D_post_none {s} : D.post s none = fin s := rfl
theorem D_post_some {s g} : D.post s (some g) = (s = born g) := rfl

theorem good (E : Env) : D.Good E where
  main := rfl
  init := rfl
  monitor := rfl
  api _ := rfl
  spawn g s g' h := rfl
  body g s hs := by
    obtain rfl := hs
    cases g with
    | monitorLoop =>
      obtain ⟨mode, cfg, hb, ms⟩ := E
      cases mode <;> wp_code [D_ok, D_may, D_next, ok, next, D_post_none, D_post_some, born, fin, Role.cl] <;> simp +contextual [Role.cl]
    | packet raw =>
      rw [body, packet_eq]
      cases hp : M3UA.parse raw with
      | ok m => cases m <;> wp_code [D_ok, D_may, D_next, ok, next, D_post_none, D_post_some, born, fin] <;> simp [Role.cl]
      | _ => wp_code [D_post_none, D_post_some, born, fin] <;> simp [Role.cl]
    | api c =>
      cases c <;> wp_code [D_ok, D_may, D_next, ok, next, D_post_none, D_post_some, born, fin] <;> (try simp [Role.cl])
    | _ => wp_code [D_ok, D_may, D_next, ok, next, D_post_none, D_post_some, born, fin] <;> simp_all [Role.cl]

def one (s : S) : Nat := if s.lock then 1 else 0

/-- What is known about the state in a ghost state. -/
def Known (sh : Shared) (s : S) : Prop :=
  match s.m with
  | .saw x => s.lock = true ∧ sh.st = x
  | .shut => sh.st = .down
  | _ => True

structure I (sh : Shared) (ss : List S) : Prop where
  tot : tot one ss = if sh.locked then 1 else 0
  known : ∀ (i : Nat) (s : S), ss[i]? = some s → Known sh s
  mon : ∀ (i : Nat) (s : S), ss[i]? = some s → (s.m ≠ .other ↔ i = 2)
  len : 3 ≤ ss.length

theorem one_born (g : Gor) : one (born g) = 0 := rfl

theorem I.alone {sh : Shared} {ss : List S} (h : I sh ss) {i j : Nat} {s t : S} (hij : i ≠ j) (hs : ss[i]? = some s) (ht : ss[j]? = some t)
    (h1 : s.lock = true) (h2 : t.lock = true) : False := by
  have h3 := tot_ge_two one hij hs ht
  have h4 := h.tot
  simp only [one, h1, h2, if_true] at h3
  split at h4 <;> omega

/-- One goroutine does something, others are started. -/
theorem I.step {sh sh' : Shared} {ss : List S} (h : I sh ss) {i : Nat} {s : S} (hs : ss[i]? = some s) (s' : S) (gs : List S)
    (hl : (if sh'.locked then 1 else 0) + one s = (if sh.locked then 1 else 0) + one s') (hk : Known sh' s')
    (hm : s'.m = .other ↔ s.m = .other) (hgs : ∀ g ∈ gs, g.lock = false ∧ g.m = .other)
    (ho : ∀ (j : Nat) (t : S), j ≠ i → ss[j]? = some t → Known sh' t) : I sh' (ss.set i s' ++ gs) := by
  have ht := tot_set one s' hs
  have h0 : M3.Conn.tot one gs = 0 := Keep.tot_zero_of fun g hg => by simp [one, (hgs g hg).1]
  have hlt : i < ss.length := (List.getElem?_eq_some_iff.mp hs).1
  refine ⟨by rw [tot_append, h0]; have := h.tot; omega, fun j t hj => ?_, fun j t hj => ?_, by simp; have := h.len; omega⟩
  · rcases mem_set_cases hs hj with ⟨-, h2⟩ | ⟨hne, h2⟩ | h2
    · rw [h2]; exact hk
    · exact ho j t hne h2
    · have := (hgs t h2).2
      simp [Known, this]
  · by_cases hlt' : j < ss.length
    · rw [List.getElem?_append_left (by simpa using hlt')] at hj
      by_cases hij : i = j
      · subst hij
        rw [List.getElem?_set_self hlt] at hj
        cases hj
        rw [← h.mon i s hs]
        exact not_congr hm
      · rw [List.getElem?_set_ne hij] at hj
        exact h.mon j t hj
    · have h3 := h.len
      rw [List.getElem?_append_right (by simp; omega)] at hj
      have := (hgs t (List.mem_of_getElem? hj)).2
      constructor
      · intro h'; exact (h' this).elim
      · intro h'; omega

/-- Neither the lock nor the state changes. -/
theorem I.same {sh sh' : Shared} {ss : List S} (h : I sh ss) {i : Nat} {s : S} (hs : ss[i]? = some s) (gs : List S)
    (hl : sh'.locked = sh.locked) (hst : sh'.st = sh.st) (hgs : ∀ g ∈ gs, g.lock = false ∧ g.m = .other) : I sh' (ss.set i s ++ gs) := by
  have hk : ∀ t, Known sh t → Known sh' t := fun t ht => by simpa only [Known, hst] using ht
  exact h.step hs s gs (by rw [hl]) (hk _ (h.known i s hs)) Iff.rfl hgs fun j t _ hj => hk _ (h.known j t hj)

theorem Exec.keeps {sh sh' : Shared} {o : Op} {r : Resp o} (h : Exec sh o r sh') (h1 : o ≠ .lock) (h2 : o ≠ .unlock) (h3 : ∀ x, o ≠ .putSt x) :
    sh'.locked = sh.locked ∧ sh'.st = sh.st := by
  cases h <;> first | exact ⟨rfl, rfl⟩ | exact (h1 rfl).elim | exact (h2 rfl).elim | exact (h3 _ rfl).elim

theorem pres : Pres D (fun sh _ ss => I sh ss) where
  env sh sh' tr ss h he := by cases he <;> exact ⟨h.tot, h.known, h.mon, h.len⟩
  call sh tr ss c h _ := by
    have h3 := h.len
    refine ⟨?_, fun i s hi => ?_, fun i s hi => ?_, by simp; omega⟩
    · show M3.Conn.tot one (ss ++ [born (.api c)]) = _
      rw [tot_append, h.tot]; rfl
    · by_cases hl : i < ss.length
      · rw [List.getElem?_append_left hl] at hi; exact h.known i s hi
      · rw [List.getElem?_append_right (by omega)] at hi
        cases List.mem_singleton.mp (List.mem_of_getElem? hi)
        trivial
    · by_cases hl : i < ss.length
      · rw [List.getElem?_append_left hl] at hi; exact h.mon i s hi
      · rw [List.getElem?_append_right (by omega)] at hi
        cases List.mem_singleton.mp (List.mem_of_getElem? hi)
        constructor
        · intro h'; exact (h' rfl).elim
        · intro h'; omega
  run sh sh' tr ss i g s o r h hs hok hx := by
    refine ⟨trivial, ?_⟩
    have hok : ok s o := hok
    show I sh' (ss.set i (next s o r) ++ (spawned o).map born)
    have hk := h.known i s hs
    obtain ⟨lk, m⟩ := s
    cases o with
    | lock =>
      obtain rfl : lk = false := hok
      cases hx with
      | lock hl =>
      refine h.step hs _ _ (by simp [next, one, hl]) ?_ Iff.rfl (by simp [spawned]) fun j t _ hj => h.known j t hj
      cases m with
      | saw x => cases hk.1
      | _ => exact hk
    | unlock =>
      obtain rfl : lk = true := hok
      cases hx
      have hl : sh.locked = true := by
        have h1 := tot_ge one hs
        have h2 := h.tot
        simp only [one, if_true] at h1
        cases hc : sh.locked with
        | true => rfl
        | false => rw [hc] at h2; simp at h2; omega
      refine h.step hs _ _ (by simp [next, one, hl]) ?_ ?_ (by simp [spawned]) fun j t _ hj => h.known j t hj
      · cases m <;> first | trivial | exact hk
      · cases m <;> simp [next]
    | getSt =>
      obtain rfl : lk = true := hok
      cases hx
      refine h.step hs _ _ rfl ?_ ?_ (by simp [spawned]) fun j t _ hj => h.known j t hj
      · cases m <;> first | exact ⟨rfl, rfl⟩ | exact hk
      · cases m <;> simp [next]
    | putSt x =>
      obtain ⟨h1, h2, h3⟩ := hok
      obtain rfl : lk = true := h1
      cases hx
      refine h.step hs _ _ rfl ?_ ?_ (by simp [spawned]) fun j t hne hj => ?_
      · cases m <;> first | exact ⟨rfl, rfl⟩ | trivial | exact (h3 rfl).elim
      · cases m <;> simp [next]
      · have hkj := h.known j t hj
        obtain ⟨lk', m'⟩ := t
        cases m' with
        | saw y => exact (h.alone hne hj hs hkj.1 rfl).elim
        | shut =>
          have hj2 : j = 2 := (h.mon j _ hj).mp (by simp)
          have hm : m = .other := by
            refine Classical.byContradiction fun hm => hne ?_
            rw [hj2, (h.mon i _ hs).mp hm]
          exact h2 hm
        | _ => trivial
    | sctpClose =>
      obtain ⟨h1, h2⟩ := Exec.keeps hx (by simp) (by simp) (by simp)
      refine h.step hs _ _ (by rw [h1]; rfl) ?_ ?_ (by simp [spawned]) fun j t hne hj => by simpa only [Known, h2] using h.known j t hj
      · rcases hok with h' | ⟨h', h''⟩
        · obtain rfl : m = .other := h'
          trivial
        · obtain rfl : m = .saw .down := h'
          exact h2.trans hk.2
      · cases m <;> simp [next]
    | spawn g' =>
      obtain ⟨h1, h2⟩ := Exec.keeps hx (by simp) (by simp) (by simp)
      have hok : Role.cl g' ≠ .monitor := hok
      exact h.same hs _ h1 h2 (by simp [spawned, born, hok])
    | _ =>
      obtain ⟨h1, h2⟩ := Exec.keeps hx (by simp) (by simp) (by simp)
      exact h.same hs _ h1 h2 (by simp [spawned])
  sync sh sh' tr ss i j gi gj si sj oi oj ri rj h hij hsi hsj hoi hoj hx := by
    refine ⟨trivial, trivial, ?_⟩
    cases hx <;> (show I _ ((ss.set i si).set j sj)) <;> rw [set_self hsi, set_self hsj] <;> exact ⟨h.tot, h.known, h.mon, h.len⟩
  crash sh tr ss i g s o h hs hok hx := ⟨h.tot, h.known, h.mon, h.len⟩

theorem reach {E : Env} {w : World} (h : Reachable E w) : ∃ ss, D.Linked w ss ∧ I w.sh ss := by
  refine Disc.reach (good E) pres ⟨rfl, fun i s hi => ?_, fun i s hi => ?_, Nat.le_refl 3⟩ h
  all_goals
    rcases i with _ | _ | _ | i <;> simp [born, D, Role.cl] at hi <;> subst hi <;> simp [Known]

/-- When the monitor has returned, the state is AspDown. -/
theorem down {E : Env} {w : World} (h : Reachable E w) {g : Gor} {e : List Ev} (ht : w.threads[2]? = some ⟨g, e, .ret none⟩) : w.sh.st = .down := by
  obtain ⟨ss, hl, hi⟩ := reach h
  obtain ⟨s, hs⟩ := getElem?_some_of_length hl.1 ht
  have hf : fin s := D_post_none.mp (wp_ret.mp (hl.2 2 _ s ht hs))
  have hm := (hi.mon 2 s hs).mpr rfl
  have hk := hi.known 2 s hs
  rcases hf.2 with h1 | h1
  · exact (hm h1).elim
  · simpa only [Known, h1] using hk

end M3.Conn.Down
