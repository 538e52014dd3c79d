import Verif.Lemmas.Conn.Code
import Verif.Lemmas.Conn.Count

/- When a connection is handed to the user, and when it is closed. -/

set_option autoImplicit false

namespace M3.Conn.Est

/-- Ghost value: this goroutine has received from `established`. -/
def ok (s : Bool) : Op → Prop
  | .opened .conn => s = true
  | _ => True

def next (s : Bool) : (o : Op) → Resp o → Bool
  | .estSelect, .ok => true
  | _, _ => s

def D : Disc Bool where
  start _ _ := True
  born _ := false
  ok _ := ok
  may _ _ _ _ := True
  next _ := next

theorem D_ok {g s o} : D.ok g s o = ok s o := rfl
theorem D_may {g s o r} : D.may g s o r = True := rfl
theorem D_next {g s o r} : D.next g s o r = next s o r := rfl
theorem D_post {s r} : D.post s r ↔ True := by cases r <;> simp [Disc.post, D]

theorem good (E : Env) : D.Good E where
  main := trivial
  init := trivial
  monitor := trivial
  api _ := trivial
  spawn _ _ _ _ := trivial
  body g s _ := by
    cases g with
    | monitorLoop =>
      obtain ⟨mode, cfg, hb, ms⟩ := E
      cases mode <;> wp_code [D_ok, D_may, D_next, ok, next, D_post]
    | packet raw =>
      rw [body, packet_eq]
      cases hp : M3UA.parse raw with
      | ok m => cases m <;> wp_code [D_ok, D_may, D_next, ok, next, D_post]
      | _ => wp_code [D_post]
    | api c => cases c <;> wp_code [D_ok, D_may, D_next, ok, next, D_post]
    | _ => wp_code [D_ok, D_may, D_next, ok, next, D_post]

structure I (sh : Shared) (tr : List Rec) (ss : List Bool) : Prop where
  handed : ∀ i : Nat, ss[i]? = some true → sh.handed = true
  opened : ∀ x ∈ tr, x.ev.op = .opened .conn → sh.handed = true
  closed : sh.estClosed = true → ∃ x ∈ tr, x.ev.op = .closeEst

theorem pres : Pres D I where
  env sh sh' tr ss h he := by cases he <;> exact ⟨h.handed, h.opened, h.closed⟩
  call sh tr ss c h _ := by
    refine ⟨fun j hj => ?_, h.opened, h.closed⟩
    by_cases hj' : j < ss.length
    · rw [List.getElem?_append_left hj'] at hj; exact h.handed j hj
    · rw [List.getElem?_append_right (by omega)] at hj
      have := List.mem_of_getElem? hj
      simp [D] at this
  run sh sh' tr ss i g s o r h hs hok hx := by
    have hok : ok s o := hok
    refine ⟨trivial, ?_⟩
    show I sh' (tr ++ [⟨i, g, o, r⟩]) (ss.set i (next s o r) ++ (spawned o).map fun _ => false)
    have hn : next s o r = s := by
      cases o <;> first | rfl | (cases hx <;> rfl)
    have hh : sh'.handed = sh.handed := by cases hx <;> rfl
    refine ⟨fun j hj => ?_, fun x hx' ho => ?_, fun hc => ?_⟩
    · rw [hn, set_self hs] at hj
      rw [hh]
      by_cases hj' : j < ss.length
      · rw [List.getElem?_append_left hj'] at hj; exact h.handed j hj
      · rw [List.getElem?_append_right (by omega)] at hj
        have := List.mem_of_getElem? hj
        simp at this
    · rw [hh]
      rcases List.mem_append.mp hx' with hx' | hx'
      · exact h.opened x hx' ho
      · simp only [List.mem_singleton] at hx'
        subst hx'
        simp only at ho
        subst ho
        have hok : s = true := hok
        subst hok
        exact h.handed i hs
    · cases hx with
      | closeEst => exact ⟨_, List.mem_append_right _ (.head _), rfl⟩
      | _ =>
        obtain ⟨x, h1, h2⟩ := h.closed hc
        exact ⟨x, List.mem_append_left _ h1, h2⟩
  sync sh sh' tr ss i j gi gj si sj oi oj ri rj h hij hsi hsj hoi hoj hx := by
    have hoi : ok si oi := hoi
    have hoj : ok sj oj := hoj
    refine ⟨trivial, trivial, ?_⟩
    show I sh' (tr ++ [⟨i, gi, oi, ri⟩, ⟨j, gj, oj, rj⟩]) ((ss.set i (next si oi ri)).set j (next sj oj rj))
    have hni : next si oi ri = si := by cases hx <;> rfl
    rw [hni, set_self hsi]
    refine ⟨fun k hk => ?_, fun x hx' ho => ?_, fun hc => ?_⟩
    · rcases mem_set_cases (gs := []) hsj (by simpa using hk) with ⟨rfl, h1⟩ | ⟨-, h1⟩ | h1
      · cases hx with
        | est => rfl
        | _ => exact h.handed k (by rw [hsj]; exact congrArg some h1.symm)
      · have := h.handed k h1
        cases hx <;> first | rfl | exact this
      · cases h1
    · rcases List.mem_append.mp hx' with hx' | hx'
      · have := h.opened x hx' ho
        cases hx <;> first | rfl | exact this
      · simp only [List.mem_cons, List.not_mem_nil, or_false] at hx'
        rcases hx' with rfl | rfl <;> simp only at ho <;> subst ho <;> cases hx
    · have hc' : sh.estClosed = true := by cases hx <;> exact hc
      obtain ⟨x, h1, h2⟩ := h.closed hc'
      exact ⟨x, List.mem_append_left _ h1, h2⟩
  crash sh tr ss i g s o h _ _ _ := ⟨h.handed, h.opened, h.closed⟩

theorem reach {E : Env} {w : World} (h : Reachable E w) : ∃ ss, D.Linked w ss ∧ I w.sh w.trace ss :=
  Disc.reach (good E) pres ⟨fun i hi => by rcases i with _ | _ | _ | i <;> simp [D] at hi, by simp, nofun⟩ h

/-- The connection is not closed as long as nobody has got that far in `Close`. -/
theorem notClosed {E : Env} {w : World} (h : Reachable E w) (hc : ∀ x ∈ w.trace, x.ev.op ≠ .closeEst) :
    w.sh.estClosed = false := by
  obtain ⟨ss, -, hi⟩ := reach h
  cases he : w.sh.estClosed with
  | false => rfl
  | true => obtain ⟨x, h1, h2⟩ := hi.closed he; exact absurd h2 (hc x h1)

/-- When `Dial` or `Accept` returns a connection, it has been handed over. -/
theorem opened {E : Env} {w : World} (h : Reachable E w) {i : Nat} {g : Gor} {hist : List Ev}
    {k : Resp (.opened .conn) → Prog (Option Gor)} (ht : w.threads[i]? = some ⟨g, hist, .op (.opened .conn) k⟩) :
    w.sh.handed = true := by
  obtain ⟨ss, hl, hi⟩ := reach h
  obtain ⟨s, hs⟩ := getElem?_some_of_length hl.1 ht
  have : s = true := (wp_op.mp (hl.2 i _ s ht hs)).1
  exact hi.handed i (this ▸ hs)

end M3.Conn.Est
