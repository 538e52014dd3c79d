import Verif.Lemmas.Conn.Code
import Verif.Lemmas.Conn.Count
import Verif.Lemmas.Conn.Path

/- There is one goroutine that sends heartbeats; who looks at their data. -/

set_option autoImplicit false
set_option linter.unusedSimpArgs false

namespace M3.Conn.One

/-- This goroutine is, or will start, the one that sends heartbeats. -/
def born : Gor → Bool
  | .monitor | .heartbeat | .beatLoop => true
  | _ => false

def ok (g : Gor) (s : Bool) : Op → Prop
  | .spawn .heartbeat => s = true
  | .spawn g' => born g' = false
  | .rand | .setBeat => s = true ∧ g = .beatLoop
  | .getBeat => ∃ raw a, g = .packet raw ∧ M3UA.parse raw = .ok (.heartbeatAck a)
  | _ => True

def next (s : Bool) : Op → Bool
  | .spawn .heartbeat => false
  | _ => s

def D : Disc Bool where
  start g s := s = born g
  born := born
  ok g s o := ok g s o
  may _ _ _ _ := True
  next _ s o _ := next s o

theorem D_ok {g s o} : D.ok g s o = ok g s o := rfl
theorem D_may {g s o r} : D.may g s o r = True := rfl
theorem D_next {g s o r} : D.next g s o r = next s o := rfl
theorem D_post {s r} : D.post s r ↔ ∀ g, r = some g → s = born g := by
  cases r <;> simp [Disc.post, D]

theorem good (E : Env) : D.Good E where
  main := rfl
  init := rfl
  monitor := rfl
  api _ := rfl
  spawn g s g' h := rfl
  body g s hs := by
    obtain rfl := hs
    cases g with
    | monitorLoop =>
      obtain ⟨mode, cfg, hb, ms⟩ := E
      cases mode <;> wp_code [D_ok, D_may, D_next, ok, next, D_post, born] <;> simp
    | packet raw =>
      rw [body, packet_eq]
      cases hp : M3UA.parse raw with
      | ok m =>
        cases m <;> wp_code [D_ok, D_may, D_next, ok, next, D_post, born] <;> simp [hp]
      | _ => wp_code [D_post] <;> simp
    | api c =>
      cases c <;> wp_code [D_ok, D_may, D_next, ok, next, D_post, born] <;> simp
    | _ => wp_code [D_ok, D_may, D_next, ok, next, D_post, born] <;> simp_all

def one (s : Bool) : Nat := if s then 1 else 0

def I (ss : List Bool) : Prop := tot one ss = 1

theorem born_zero {g : Gor} (h : born g = false) : tot one ([g].map born) = 0 := by simp [tot, one, h]

theorem pres : Pres D (fun _ _ ss => I ss) where
  env sh sh' tr ss h he := h
  call sh tr ss c h _ := by
    show tot one (ss ++ [false]) = 1
    rw [tot_append, h]; rfl
  run sh sh' tr ss i g s o r h hs hok hx := by
    refine ⟨trivial, ?_⟩
    have hok : ok g s o := hok
    show tot one (ss.set i (next s o) ++ (spawned o).map born) = 1
    have h1 := tot_set one (next s o) hs
    have h : tot one ss = 1 := h
    rw [tot_append]
    cases o with
    | spawn g' =>
      by_cases hb : g' = .heartbeat
      · subst hb
        have hok : s = true := hok
        subst hok
        simp only [next, spawned, List.map_cons, List.map_nil, born, one, tot_cons, tot_nil] at h1 ⊢
        simp at h1 ⊢
        omega
      · have hok : born g' = false := by cases g' <;> first | exact hok | exact absurd rfl hb
        have hn : next s (.spawn g') = s := by cases g' <;> first | rfl | exact absurd rfl hb
        rw [hn] at h1 ⊢
        have := born_zero hok
        simp only [spawned] at this ⊢
        omega
    | _ => simp only [next, spawned, List.map_nil, tot_nil] at h1 ⊢; omega
  sync sh sh' tr ss i j gi gj si sj oi oj ri rj h hij hsi hsj hoi hoj hx := by
    refine ⟨trivial, trivial, ?_⟩
    cases hx <;> (show I ((ss.set i si).set j sj)) <;> rw [set_self hsi, set_self hsj] <;> exact h
  crash sh tr ss i g s o h hs hok hx := h

/-- What is known about a goroutine by its next operation. -/
theorem reach {E : Env} {w : World} (h : Reachable E w) : ∃ ss, D.Linked w ss ∧ I ss := Disc.reach (good E) pres rfl h

/-- Random numbers are drawn, and the data of heartbeats stored, by one goroutine only. -/
theorem single {E : Env} {w : World} (h : Reachable E w) {i j : Nat} {gi gj : Gor} {ei ej : List Ev} {oi oj : Op}
    {ki : Resp oi → Prog (Option Gor)} {kj : Resp oj → Prog (Option Gor)} (hi : w.threads[i]? = some ⟨gi, ei, .op oi ki⟩)
    (hj : w.threads[j]? = some ⟨gj, ej, .op oj kj⟩) (ho : oi = .rand ∨ oi = .setBeat) (ho' : oj = .rand ∨ oj = .setBeat) : i = j := by
  obtain ⟨ss, hl, hI⟩ := reach h
  obtain ⟨s, hs⟩ := getElem?_some_of_length hl.1 hi
  obtain ⟨t, ht⟩ := getElem?_some_of_length hl.1 hj
  have a := (wp_op.mp (hl.2 i _ s hi hs)).1
  have b := (wp_op.mp (hl.2 j _ t hj ht)).1
  have a : s = true := by rcases ho with rfl | rfl <;> exact a.1
  have b : t = true := by rcases ho' with rfl | rfl <;> exact b.1
  subst a b
  by_cases hij : i = j
  · exact hij
  · have := tot_ge_two one hij hs ht
    have hI : tot one ss = 1 := hI
    simp only [one, if_true] at this
    omega

theorem drawer {E : Env} {w : World} (h : Reachable E w) {i : Nat} {g : Gor} {e : List Ev} {o : Op}
    {k : Resp o → Prog (Option Gor)} (hi : w.threads[i]? = some ⟨g, e, .op o k⟩) (ho : o = .rand ∨ o = .setBeat) : g = .beatLoop := by
  obtain ⟨ss, hl, hI⟩ := reach h
  obtain ⟨s, hs⟩ := getElem?_some_of_length hl.1 hi
  have a := (wp_op.mp (hl.2 i _ s hi hs)).1
  rcases ho with rfl | rfl <;> exact a.2

theorem looker {E : Env} {w : World} (h : Reachable E w) {i : Nat} {g : Gor} {e : List Ev}
    {k : Resp .getBeat → Prog (Option Gor)} (hi : w.threads[i]? = some ⟨g, e, .op .getBeat k⟩) :
    ∃ raw a, g = .packet raw ∧ M3UA.parse raw = .ok (.heartbeatAck a) := by
  obtain ⟨ss, hl, hI⟩ := reach h
  obtain ⟨s, hs⟩ := getElem?_some_of_length hl.1 hi
  exact (wp_op.mp (hl.2 i _ s hi hs)).1

end M3.Conn.One
