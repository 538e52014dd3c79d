import Verif.Lemmas.Conn.Fold

/- A connection is active only because the peer asked for it. -/

set_option autoImplicit false

namespace M3.Conn.Active

open Spec Fold

theorem _root_.M3.Spec.activated.mono {tr : List Rec} (xs : List Rec) (h : activated tr) : activated (tr ++ xs) := by
  obtain ⟨raw, h1, h2⟩ := h
  exact ⟨raw, by rw [receives_append]; exact List.mem_append_left _ h1, h2⟩

def Known (tr : List Rec) : S → Prop
  | .pend raw seen => raw ∈ receives tr ∧ (seen = some .active → activated tr)
  | .upd x | .applied x => x = .active → activated tr
  | .got raw => raw ∈ receives tr
  | _ => True

theorem Known.mono {tr : List Rec} {s : S} (xs : List Rec) (h : Known tr s) : Known (tr ++ xs) s := by
  cases s with
  | pend raw seen => exact ⟨by rw [receives_append]; exact List.mem_append_left _ h.1, fun hx => (h.2 hx).mono xs⟩
  | upd x => exact fun hx => activated.mono xs (h hx)
  | applied x => exact fun hx => activated.mono xs (h hx)
  | got raw => show _ ∈ _; rw [receives_append]; exact List.mem_append_left _ h
  | _ => trivial

structure I (sh : Shared) (tr : List Rec) (ss : List S) : Prop where
  st : sh.st = .active → activated tr
  handed : sh.handed = true → activated tr
  known : ∀ (j : Nat) (s : S), ss[j]? = some s → Known tr s

theorem I.step {sh sh' : Shared} {tr : List Rec} {ss : List S} (h : I sh tr ss) {i : Nat} {s : S} (hs : ss[i]? = some s)
    (s' : S) (gs : List S) (xs : List Rec) (h1 : sh'.st = sh.st ∨ (sh'.st = .active → activated (tr ++ xs)))
    (h2 : sh'.handed = sh.handed ∨ (sh'.handed = true → activated (tr ++ xs)))
    (h3 : Known (tr ++ xs) s') (h4 : ∀ g ∈ gs, Known (tr ++ xs) g) : I sh' (tr ++ xs) (ss.set i s' ++ gs) := by
  refine ⟨?_, ?_, ?_⟩
  · rcases h1 with h1 | h1
    · rw [h1]; exact fun hx => (h.st hx).mono xs
    · exact h1
  · rcases h2 with h2 | h2
    · rw [h2]; exact fun hx => (h.handed hx).mono xs
    · exact h2
  · intro j t ht
    rcases mem_set_cases hs ht with ⟨-, rfl⟩ | ⟨-, h5⟩ | h5
    · exact h3
    · exact (h.known j t h5).mono xs
    · exact h4 t h5

theorem pres : Pres D I where
  env sh sh' tr ss h he := by cases he <;> exact ⟨h.st, h.handed, h.known⟩
  call sh tr ss c h _ := by
    refine ⟨h.st, h.handed, fun j s hj => ?_⟩
    by_cases hj' : j < ss.length
    · rw [List.getElem?_append_left hj'] at hj; exact h.known j s hj
    · rw [List.getElem?_append_right (by omega)] at hj
      have := List.mem_of_getElem? hj
      simp only [D, born, List.mem_singleton] at this
      subst this; trivial
  run sh sh' tr ss i g s o r h hs hok hx := by
    have hok : ok s o := hok
    refine ⟨trivial, ?_⟩
    show I sh' (tr ++ [⟨i, g, o, r⟩]) (ss.set i (next s o r) ++ (spawned o).map born)
    have hk := (h.known i s hs).mono [⟨i, g, o, r⟩]
    cases o with
    | read n =>
      refine h.step hs _ _ _ (.inl (by cases hx <;> rfl)) (.inl (by cases hx <;> rfl)) ?_ (by simp [spawned])
      cases r with
      | none => trivial
      | some raw => show raw ∈ _; rw [receives_append]; exact List.mem_append_right _ (List.mem_singleton.mpr rfl)
    | putSt x =>
      cases hx
      rcases hok with rfl | ⟨rfl, rfl⟩
      · exact h.step hs _ _ _ (.inr hk) (.inl rfl) (by simpa [next, Known] using hk) (by simp [spawned])
      · exact h.step hs _ _ _ (.inr nofun) (.inl rfl) (by simp [next, Known]) (by simp [spawned])
    | closeEst => cases hx; exact h.step hs _ _ _ (.inl rfl) (.inl rfl) trivial (by simp [spawned])
    | spawn g' =>
      cases hx
      cases g' with
      | packet raw =>
        have hs' : s = .got raw := hok
        subst hs'
        exact h.step hs _ _ _ (.inl rfl) (.inl rfl) trivial (by simpa [spawned, born, Known] using hk)
      | start => cases hok
      | _ => exact h.step hs _ _ _ (.inl rfl) (.inl rfl) hk (by simp [spawned, born, Known])
    | state =>
      cases hx
      refine h.step hs _ _ _ (.inl rfl) (.inl rfl) ?_ (by simp [spawned])
      cases s with
      | pend raw seen => exact ⟨hk.1, fun hx => (h.st (Option.some.inj hx)).mono _⟩
      | _ => exact hk
    | monSelect => cases hx; exact h.step hs _ _ _ (.inl rfl) (.inl rfl) hk (by simp [spawned])
    | sendState x => cases hx
    | _ =>
      exact h.step hs _ _ _ (.inl (by cases hx <;> rfl)) (.inl (by cases hx <;> rfl)) hk (by simp [spawned])
  sync sh sh' tr ss i j gi gj si sj oi oj ri rj h hij hsi hsj hoi hoj hx := by
    have hoi : ok si oi := hoi
    have hoj : ok sj oj := hoj
    refine ⟨trivial, trivial, ?_⟩
    show I sh' (tr ++ [⟨i, gi, oi, ri⟩, ⟨j, gj, oj, rj⟩]) ((ss.set i (next si oi ri)).set j (next sj oj rj))
    have hki := (h.known i si hsi).mono [⟨i, gi, oi, ri⟩]
    have hki' := hki.mono [⟨j, gj, oj, rj⟩]
    have hkj := ((h.known j sj hsj).mono [⟨i, gi, oi, ri⟩]).mono [⟨j, gj, oj, rj⟩]
    have hj' : (ss.set i (next si oi ri))[j]? = some sj := by rw [getElem?_set_ne' _ hij]; exact hsj
    have two : ∀ (h1 : Known (tr ++ [⟨i, gi, oi, ri⟩]) (next si oi ri))
        (h2 : Known (tr ++ [⟨i, gi, oi, ri⟩] ++ [⟨j, gj, oj, rj⟩]) (next sj oj rj))
        (h3 : sh'.st = sh.st) (h4 : sh'.handed = sh.handed ∨ (sh'.handed = true → activated (tr ++ [⟨i, gi, oi, ri⟩]))),
        I sh' (tr ++ [⟨i, gi, oi, ri⟩, ⟨j, gj, oj, rj⟩]) ((ss.set i (next si oi ri)).set j (next sj oj rj)) := by
      intro h1 h2 h3 h4
      have a := h.step (sh' := sh') hsi (next si oi ri) [] [⟨i, gi, oi, ri⟩] (.inl h3) h4 h1 (by simp)
      rw [List.append_nil] at a
      have b := a.step (sh' := sh') hj' (next sj oj rj) [] [⟨j, gj, oj, rj⟩] (.inl rfl) (.inl rfl) h2 (by simp)
      simpa using b
    cases hx with
    | err => exact two hki hkj rfl (.inl rfl)
    | est =>
      refine two hki hkj rfl (.inr fun _ => ?_)
      have hs : si = .applied .active := hoi
      subst hs
      exact hki rfl
    | ack => exact two hki hkj rfl (.inl rfl)
    | @state st =>
      refine two trivial ?_ rfl (.inl rfl)
      show st = .active → _
      rintro rfl
      cases si with
      | start => cases hoi
      | pend raw seen =>
        rcases hoi with he | ⟨he, rfl⟩
        · exact ⟨raw, hki'.1, he⟩
        · exact hki'.2 rfl
      | _ => cases hoi
  crash sh tr ss i g s o h _ _ _ := ⟨h.st, h.handed, h.known⟩

theorem reach {E : Env} {w : World} (h : Reachable E w) :
    (w.sh.st = .active → activated w.trace) ∧ (w.sh.handed = true → activated w.trace) := by
  obtain ⟨ss, -, hi⟩ := Disc.reach (good E) pres (I := I) ⟨nofun, nofun, fun j s hj => by
    rcases j with _ | _ | _ | j <;> simp [D, born] at hj <;> subst hj <;> trivial⟩ h
  exact ⟨hi.st, hi.handed⟩

end M3.Conn.Active
