import Verif.Lemmas.Conn.Code
import Verif.Lemmas.Conn.Count
import Verif.Lemmas.Conn.Path

/- There is one goroutine that sends heartbeats. -/

set_option autoImplicit false
set_option linter.unusedSimpArgs false

namespace M3.Conn.Solo

/-- This goroutine will start the one that sends heartbeats, is that one, or is another one. -/
inductive Cl where
  | before | beat | other
  deriving DecidableEq

def cl : Gor → Cl
  | .monitor => .before
  | .heartbeat | .beatLoop => .beat
  | _ => .other

def ok (g : Gor) (s : Cl) (o : Op) : Prop :=
  (g = .beatLoop ↔ s = .beat ∧ o ≠ .waitEnter ∧ o ≠ .waitLeave) ∧
  match o with
  | .spawn .heartbeat => s = .before
  | .spawn g' => cl g' = .other
  | _ => True

def next (s : Cl) : Op → Cl
  | .spawn .heartbeat => .other
  | _ => s

def D : Disc Cl where
  start g s := s = cl g
  born := cl
  ok g s o := ok g s o
  may _ _ _ _ := True
  next _ s o _ := next s o

theorem D_ok {g s o} : D.ok g s o = ok g s o := rfl
theorem D_may {g s o r} : D.may g s o r = True := rfl
theorem D_next {g s o r} : D.next g s o r = next s o := rfl
theorem D_post {s r} : D.post s r ↔ ∀ g, r = some g → s = cl g := by
  cases r <;> simp [Disc.post, D]

theorem good (E : Env) : D.Good E where
  main := rfl
  init := rfl
  monitor := rfl
  api _ := rfl
  spawn g s g' h := rfl
  body g s hs := by
    obtain rfl := hs
    cases g with
    | monitorLoop =>
      obtain ⟨mode, cfg, hb, ms⟩ := E
      cases mode <;> wp_code [D_ok, D_may, D_next, ok, next, D_post, cl] <;> simp
    | packet raw =>
      rw [body, packet_eq]
      cases hp : M3UA.parse raw with
      | ok m =>
        cases m <;> wp_code [D_ok, D_may, D_next, ok, next, D_post, cl] <;> simp
      | _ => wp_code [D_post] <;> simp
    | api c =>
      cases c <;> wp_code [D_ok, D_may, D_next, ok, next, D_post, cl] <;> simp
    | _ => wp_code [D_ok, D_may, D_next, ok, next, D_post, cl] <;> simp_all

def one : Cl → Nat
  | .other => 0
  | _ => 1

structure I (tr : List Rec) (ss : List Cl) : Prop where
  sum : tot one ss = 1
  own : ∀ x ∈ tr, ∃ s, ss[x.tid]? = some s ∧ (x.gor = .beatLoop ↔ s = .beat ∧ x.ev.op ≠ .waitEnter ∧ x.ev.op ≠ .waitLeave)

theorem cl_zero {g : Gor} (h : cl g = .other) : tot one ([g].map cl) = 0 := by simp [tot, one, h]

theorem next_beat {s : Cl} {o : Op} {g : Gor} (h : ok g s o) : next s o = .beat ↔ s = .beat := by
  obtain ⟨-, h⟩ := h
  unfold next
  split
  · have h : s = .before := h
    subst h
    simp
  · exact Iff.rfl

theorem I.snoc {tr : List Rec} {ss : List Cl} (h : I tr ss) {i : Nat} {g : Gor} {s : Cl} {o : Op} (r : Resp o)
    (hs : ss[i]? = some s) (ho : ok g s o) : ∀ x ∈ tr ++ [⟨i, g, o, r⟩], ∃ s', (ss.set i (next s o))[x.tid]? = some s' ∧
      (x.gor = .beatLoop ↔ s' = .beat ∧ x.ev.op ≠ .waitEnter ∧ x.ev.op ≠ .waitLeave) := by
  have hi := (List.getElem?_eq_some_iff.mp hs).1
  intro x hx
  rcases List.mem_append.mp hx with hx | hx
  · obtain ⟨s', h1, h2⟩ := h.own x hx
    by_cases he : i = x.tid
    · rw [← he] at h1 ⊢
      rw [hs] at h1
      cases h1
      rw [List.getElem?_set_self hi]
      exact ⟨_, rfl, by rw [h2, next_beat ho]⟩
    · rw [List.getElem?_set_ne he]
      exact ⟨s', h1, h2⟩
  · obtain rfl := List.mem_singleton.mp hx
    rw [List.getElem?_set_self hi]
    exact ⟨_, rfl, by rw [next_beat ho]; exact ho.1⟩

theorem pres : Pres D (fun _ tr ss => I tr ss) where
  env sh sh' tr ss h he := h
  call sh tr ss c h _ := by
    refine ⟨?_, fun x hx => ?_⟩
    · show tot one (ss ++ [Cl.other]) = 1
      rw [tot_append, h.sum]; rfl
    · obtain ⟨s, h1, h2⟩ := h.own x hx
      exact ⟨s, by rw [List.getElem?_append_left (List.getElem?_eq_some_iff.mp h1).1]; exact h1, h2⟩
  run sh sh' tr ss i g s o r h hs hok hx := by
    refine ⟨trivial, ?_, fun x hx => ?_⟩
    · have hok : ok g s o := hok
      show tot one (ss.set i (next s o) ++ (spawned o).map cl) = 1
      have h1 := tot_set one (next s o) hs
      have h := h.sum
      rw [tot_append]
      cases o with
      | spawn g' =>
        by_cases hb : g' = .heartbeat
        · subst hb
          have hok : s = .before := hok.2
          subst hok
          simp only [next, spawned, List.map_cons, List.map_nil, cl, one, tot_cons, tot_nil] at h1 ⊢
          omega
        · have hok : cl g' = .other := by cases g' <;> first | exact hok.2 | exact absurd rfl hb
          have hn : next s (.spawn g') = s := by cases g' <;> first | rfl | exact absurd rfl hb
          rw [hn] at h1 ⊢
          have := cl_zero hok
          simp only [spawned] at this ⊢
          omega
      | _ => simp only [next, spawned, List.map_nil, tot_nil] at h1 ⊢; omega
    · obtain ⟨s', h1, h2⟩ := h.snoc r hs hok x hx
      refine ⟨s', ?_, h2⟩
      show (ss.set i (next s o) ++ _)[x.tid]? = some s'
      rw [List.getElem?_append_left (List.getElem?_eq_some_iff.mp h1).1]
      exact h1
  sync sh sh' tr ss i j gi gj si sj oi oj ri rj h hij hsi hsj hoi hoj hx := by
    refine ⟨trivial, trivial, ?_⟩
    have ni : next si oi = si := by cases hx <;> rfl
    have nj : next sj oj = sj := by cases hx <;> rfl
    have a := h.snoc ri hsi hoi
    rw [ni, set_self hsi] at a
    have b := (I.mk h.sum a).snoc rj hsj hoj
    rw [nj, set_self hsj] at b
    show I _ ((ss.set i (next si oi)).set j (next sj oj))
    rw [ni, nj, set_self hsi, set_self hsj]
    exact ⟨h.sum, by simpa using b⟩
  crash sh tr ss i g s o h hs hok hx := h

/-- The goroutine of one entry made in the loop of `heartbeat` made all of them. -/
theorem reach {E : Env} {w : World} (h : Reachable E w) {x y : Rec} (hx : x ∈ w.trace) (hy : y ∈ w.trace) (hg : x.gor = .beatLoop) :
    y.gor = .beatLoop ↔ y.tid = x.tid ∧ y.ev.op ≠ .waitEnter ∧ y.ev.op ≠ .waitLeave := by
  obtain ⟨ss, -, hi⟩ := Disc.reach (good E) pres ⟨rfl, by simp⟩ h
  obtain ⟨s, h1, h2⟩ := hi.own x hx
  obtain ⟨s', h3, h4⟩ := hi.own y hy
  have hs := (h2.mp hg).1
  subst hs
  rw [h4]
  constructor
  · rintro ⟨rfl, ho⟩
    refine ⟨?_, ho⟩
    by_cases he : y.tid = x.tid
    · exact he
    · have h5 := tot_ge_two one he h3 h1
      have h6 := hi.sum
      simp only [one] at h5
      omega
  · rintro ⟨he, ho⟩
    rw [he, h1] at h3
    cases h3
    exact ⟨rfl, ho⟩

end M3.Conn.Solo
