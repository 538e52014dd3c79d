import Verif.Lemmas.Conn.Role
import Verif.Lemmas.Conn.Hist

/- The goroutine that sends heartbeats waits for the connection to become active, or to end. -/

set_option autoImplicit false
set_option linter.unusedSimpArgs false

namespace M3.Conn.Wake

/-- Whether the goroutine has left the wait. -/
def woke (s : Bool) : Op → Bool
  | .waitLeave => true
  | _ => s

/-- Discipline: the loop of `heartbeat` is entered after the wait. -/
def D : Disc Bool where
  start g s := g = .beatLoop → s = true
  born _ := false
  ok g s o := (g = .beatLoop → s = true) ∧ o ≠ .spawn .beatLoop
  may _ _ _ _ := True
  next _ s o _ := woke s o

theorem D_ok {g s o} : D.ok g s o ↔ (g = .beatLoop → s = true) ∧ o ≠ .spawn .beatLoop := Iff.rfl
theorem D_may {g s o r} : D.may g s o r = True := rfl
theorem D_next {g s o r} : D.next g s o r = woke s o := rfl
theorem D_post {s r} : D.post s r ↔ (r = some .beatLoop → s = true) := by
  cases r <;> simp [Disc.post, D]

theorem good (E : Env) : D.Good E where
  main := nofun
  init := nofun
  monitor := nofun
  api _ := nofun
  spawn g s g' h hg := absurd (by rw [hg]) h.2
  body g s hs := by
    cases g with
    | beatLoop =>
      obtain rfl := hs rfl
      wp_code [D_ok, D_may, D_next, woke, D_post] <;> simp
    | monitorLoop =>
      obtain ⟨mode, cfg, hb, ms⟩ := E
      cases mode <;> wp_code [D_ok, D_may, D_next, woke, D_post] <;> simp
    | packet raw =>
      rw [body, packet_eq]
      cases hp : M3UA.parse raw with
      | ok m => cases m <;> wp_code [D_ok, D_may, D_next, woke, D_post] <;> simp
      | _ => wp_code [D_post] <;> simp
    | api c => cases c <;> wp_code [D_ok, D_may, D_next, woke, D_post] <;> simp
    | _ => wp_code [D_ok, D_may, D_next, woke, D_post] <;> simp

/-- Somebody did `o`. -/
def Did (o : Op) (tr : List Rec) : Prop := ∃ x ∈ tr, x.ev.op = o

theorem Did.mono {o : Op} {tr : List Rec} (h : Did o tr) (xs : List Rec) : Did o (tr ++ xs) :=
  let ⟨x, hx, ho⟩ := h
  ⟨x, List.mem_append_left _ hx, ho⟩

structure I (sh : Shared) (tr : List Rec) (ss : List Bool) : Prop where
  left : ∀ i, ss[i]? = some true → ∃ x ∈ tr, x.tid = i ∧ x.ev.op = .waitLeave
  woken : sh.cond = .woken → Did .broadcast tr
  est : Did .sendEst tr → sh.handed = true
  loop : ∀ x ∈ tr, x.gor = .beatLoop → ∃ y ∈ tr, y.tid = x.tid ∧ y.ev.op = .waitLeave

theorem pres : Pres D I where
  env sh sh' tr ss h he := by cases he <;> exact ⟨h.left, h.woken, h.est, h.loop⟩
  call sh tr ss c h _ := by
    refine ⟨fun i hi => h.left i ?_, h.woken, h.est, h.loop⟩
    rw [List.getElem?_append] at hi
    split at hi
    · exact hi
    · have := List.mem_of_getElem? hi
      simp [D] at this
  run sh sh' tr ss i g s o r h hs hok hx := by
    refine ⟨trivial, fun j hj => ?_, fun hw => ?_, fun he => ?_, fun x hx hg => ?_⟩
    · rw [List.getElem?_append] at hj
      split at hj
      · rw [List.getElem?_set] at hj
        split at hj
        · rename_i hij
          subst hij
          rw [if_pos (List.getElem?_eq_some_iff.mp hs).1, Option.some.injEq, D_next] at hj
          by_cases ho : o = .waitLeave
          · subst ho; exact ⟨_, List.mem_append_right _ (.head _), rfl, rfl⟩
          · have : s = true := by clear hx; cases o <;> first | exact hj | exact absurd rfl ho
            obtain ⟨x, h1, h2⟩ := h.left i (by rw [hs, this])
            exact ⟨x, List.mem_append_left _ h1, h2⟩
        · obtain ⟨x, h1, h2⟩ := h.left j hj
          exact ⟨x, List.mem_append_left _ h1, h2⟩
      · have := List.mem_of_getElem? hj
        simp [D] at this
    · by_cases hb : o = .broadcast
      · subst hb; exact ⟨_, List.mem_append_right _ (.head _), rfl⟩
      · refine (h.woken ?_).mono _
        cases hx <;> first | exact hw | cases hw | exact absurd rfl hb
    · obtain ⟨x, hx', ho⟩ := he
      rcases List.mem_append.mp hx' with h1 | h1
      · have := h.est ⟨x, h1, ho⟩
        cases hx <;> exact this
      · simp only [List.mem_singleton] at h1
        subst h1
        simp only at ho
        subst ho
        cases hx
    · rcases List.mem_append.mp hx with h1 | h1
      · obtain ⟨y, h2, h3⟩ := h.loop x h1 hg
        exact ⟨y, List.mem_append_left _ h2, h3⟩
      · simp only [List.mem_singleton] at h1
        subst h1
        obtain ⟨y, h2, h3⟩ := h.left i (by rw [hs, hok.1 hg])
        exact ⟨y, List.mem_append_left _ h2, h3⟩
  sync sh sh' tr ss i j gi gj si sj oi oj ri rj h hij hsi hsj hoi hoj hx := by
    refine ⟨trivial, trivial, fun l hl => ?_, fun hw => ?_, fun he => ?_, fun x hx' hg => ?_⟩
    · have key : ss[l]? = some true := by
        have e : ∀ (s : Bool), (D.next gi s oi ri = s) ∧ (D.next gj s oj rj = s) := by
          intro s; cases hx <;> exact ⟨rfl, rfl⟩
        rw [(e si).1, (e sj).2] at hl
        rw [List.getElem?_set] at hl
        split at hl
        · rename_i hjl
          subst hjl
          split at hl
          · rw [hsj]; exact hl
          · cases hl
        · rw [List.getElem?_set] at hl
          split at hl
          · rename_i hil
            subst hil
            split at hl
            · rw [hsi]; exact hl
            · cases hl
          · exact hl
      obtain ⟨x, h1, h2⟩ := h.left l key
      exact ⟨x, List.mem_append_left _ h1, h2⟩
    · refine (h.woken ?_).mono _
      cases hx <;> exact hw
    · cases hx with
      | est => rfl
      | _ =>
        obtain ⟨x, hx', ho⟩ := he
        refine h.est ⟨x, ?_, ho⟩
        rcases List.mem_append.mp hx' with h1 | h1
        · exact h1
        · simp only [List.mem_cons, List.not_mem_nil, or_false] at h1
          rcases h1 with rfl | rfl <;> cases ho
    · rcases List.mem_append.mp hx' with h1 | h1
      · obtain ⟨y, h2, h3⟩ := h.loop x h1 hg
        exact ⟨y, List.mem_append_left _ h2, h3⟩
      · simp only [List.mem_cons, List.not_mem_nil, or_false] at h1
        rcases h1 with rfl | rfl
        · obtain ⟨y, h2, h3⟩ := h.left i (by rw [hsi, hoi.1 hg])
          exact ⟨y, List.mem_append_left _ h2, h3⟩
        · obtain ⟨y, h2, h3⟩ := h.left j (by rw [hsj, hoj.1 hg])
          exact ⟨y, List.mem_append_left _ h2, h3⟩
  crash sh tr ss i g s o h _ _ _ := ⟨h.left, h.woken, h.est, h.loop⟩

theorem holds {E : Env} {w : World} (h : Reachable E w) : D.Holds I w :=
  Disc.reach (good E) pres ⟨fun i hi => by rcases i with _ | _ | _ | i <;> simp [D] at hi, nofun,
    (fun ⟨_, hx, _⟩ => absurd hx List.not_mem_nil), fun _ hx => absurd hx List.not_mem_nil⟩ h

/-- Who is in the loop of `heartbeat` has left the wait before. -/
theorem left {E : Env} {w : World} (h : Reachable E w) {i : Nat} {t : Thread} (ht : w.threads[i]? = some t)
    (hg : t.gor = .beatLoop) : ∃ x ∈ w.of i, x.ev.op = .waitLeave := by
  obtain ⟨ss, hl, hi⟩ := holds h
  obtain ⟨s, hs⟩ := getElem?_some_of_length hl.1 ht
  have hw := hl.2 i _ s ht hs
  obtain ⟨hp, pre, hpre, -⟩ := (Follows.reach h).2 i t ht
  obtain ⟨g, hist, p⟩ := t
  simp only at hg hp hw hpre
  subst hg
  have key : ∃ x ∈ w.trace, x.tid = i ∧ x.ev.op = .waitLeave := by
    cases p with
    | ret r =>
      cases hist with
      | nil => cases hp
      | cons e l =>
        have hm : (⟨i, .beatLoop, e⟩ : Rec) ∈ w.of i := by rw [hpre]; simp
        exact hi.loop _ (List.mem_filter.mp hm).1 rfl
    | op o k => exact hi.left i (by rw [hs, hw.1.1 rfl])
  obtain ⟨x, h1, h2, h3⟩ := key
  exact ⟨x, List.mem_filter.mpr ⟨h1, by simp [h2]⟩, h3⟩

theorem woken {E : Env} {w : World} (h : Reachable E w) (hc : w.sh.cond = .woken) : Did .broadcast w.trace := by
  obtain ⟨ss, -, hi⟩ := holds h
  exact hi.woken hc

theorem est {E : Env} {w : World} (h : Reachable E w) (hc : Did .sendEst w.trace) : w.sh.handed = true := by
  obtain ⟨ss, -, hi⟩ := holds h
  exact hi.est hc

end M3.Conn.Wake
