/- Sums over the ghost values of all goroutines. -/

set_option autoImplicit false

namespace M3.Conn

def tot {σ : Type} (f : σ → Nat) (ss : List σ) : Nat := (ss.map f).sum

variable {σ : Type} (f : σ → Nat)

theorem tot_append (a b : List σ) : tot f (a ++ b) = tot f a + tot f b := by simp [tot]

theorem tot_nil : tot f [] = 0 := rfl

theorem tot_cons (a : σ) (l : List σ) : tot f (a :: l) = f a + tot f l := by simp [tot]

theorem tot_set {ss : List σ} {i : Nat} {s : σ} (s' : σ) (h : ss[i]? = some s) :
    tot f (ss.set i s') + f s = tot f ss + f s' := by
  induction ss generalizing i with
  | nil => simp at h
  | cons a l ih =>
    cases i with
    | zero => simp at h; subst h; simp [tot_cons]; omega
    | succ i =>
      simp only [List.getElem?_cons_succ] at h
      simp only [List.set_cons_succ, tot_cons]
      have := ih h
      omega

theorem tot_ge {ss : List σ} {i : Nat} {s : σ} (h : ss[i]? = some s) : f s ≤ tot f ss := by
  have := tot_set f s h
  induction ss generalizing i with
  | nil => simp at h
  | cons a l ih =>
    cases i with
    | zero => simp at h; subst h; simp [tot_cons]
    | succ i =>
      simp only [List.getElem?_cons_succ] at h
      have := ih h (tot_set f s h)
      simp only [tot_cons]; omega

theorem tot_ge_two {ss : List σ} {i j : Nat} {s t : σ} (hij : i ≠ j) (h : ss[i]? = some s) (h' : ss[j]? = some t) :
    f s + f t ≤ tot f ss := by
  induction ss generalizing i j with
  | nil => simp at h
  | cons a l ih =>
    cases i with
    | zero =>
      cases j with
      | zero => exact absurd rfl hij
      | succ j =>
        simp only [List.getElem?_cons_zero, Option.some.injEq, List.getElem?_cons_succ] at h h'
        subst h; have := tot_ge f h'; simp only [tot_cons]; omega
    | succ i =>
      cases j with
      | zero =>
        simp only [List.getElem?_cons_zero, Option.some.injEq, List.getElem?_cons_succ] at h h'
        subst h'; have := tot_ge f h; simp only [tot_cons]; omega
      | succ j =>
        simp only [List.getElem?_cons_succ] at h h'
        have := ih (by omega) h h'
        simp only [tot_cons]; omega

theorem getElem?_set_ne' {ss : List σ} {i j : Nat} (s : σ) (h : i ≠ j) : (ss.set i s)[j]? = ss[j]? := by
  simp [h]

/-- A goroutine different from `i` after a step of `i`. -/
theorem mem_set_cases {ss : List σ} {i : Nat} {s s' : σ} {gs : List σ} {j : Nat} {t : σ} (h : ss[i]? = some s)
    (ht : (ss.set i s' ++ gs)[j]? = some t) : (j = i ∧ t = s') ∨ (j ≠ i ∧ ss[j]? = some t) ∨ t ∈ gs := by
  obtain ⟨hi, -⟩ := List.getElem?_eq_some_iff.mp h
  by_cases hj : j < ss.length
  · rw [List.getElem?_append_left (by simpa using hj)] at ht
    by_cases hij : i = j
    · subst hij
      simp [hi] at ht
      exact .inl ⟨rfl, ht.symm⟩
    · rw [getElem?_set_ne' _ hij] at ht
      exact .inr (.inl ⟨fun h => hij h.symm, ht⟩)
  · rw [List.getElem?_append_right (by simpa using hj)] at ht
    exact .inr (.inr (List.mem_of_getElem? ht))

theorem tot_zero {ss : List σ} (h : tot f ss = 0) {i : Nat} {s : σ} (hs : ss[i]? = some s) : f s = 0 := by
  have := tot_ge f hs; omega

end M3.Conn

theorem M3.Conn.set_self {σ : Type} {ss : List σ} {i : Nat} {s : σ} (h : ss[i]? = some s) : ss.set i s = ss := by
  obtain ⟨h1, h2⟩ := List.getElem?_eq_some_iff.mp h
  rw [← h2]; exact List.set_getElem_self h1
