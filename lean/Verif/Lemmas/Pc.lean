import Verif.Model.Pc
import Verif.Spec.PointCode

/-! Helper lemmas for `pc/pc.go`. -/

namespace M3
namespace Pc
open Spec

/-! ### splitting and joining -/

theorem split_ne_nil (s : Bytes) : split s ≠ [] := by
  cases s with
  | nil => simp [split]
  | cons b s =>
    simp only [split]
    split
    · simp
    · split <;> simp

theorem dashed_cons (p : Bytes) (q : Bytes) (qs : List Bytes) :
    dashed (p :: q :: qs) = p ++ 0x2d :: dashed (q :: qs) := by
  simp [dashed, List.intercalate, List.intersperse]

theorem dashed_single (p : Bytes) : dashed [p] = p := by simp [dashed, List.intercalate, List.intersperse]

theorem join_eq : ∀ ps : List Bytes, join ps = dashed ps
  | [] => rfl
  | [p] => (dashed_single p).symm
  | p :: q :: qs => by rw [dashed_cons, join, join_eq (q :: qs)]; simp

/-- A dash-free prefix. -/
theorem split_append (p s : Bytes) (hp : (0x2d : UInt8) ∉ p) :
    split (p ++ 0x2d :: s) = p :: split s := by
  induction p with
  | nil => simp [split]
  | cons b p ih =>
    have hb : b ≠ 0x2d := fun h => hp (by simp [h])
    rw [List.cons_append, split, if_neg hb, ih (fun h => hp (by simp [h]))]

theorem split_single (p : Bytes) (hp : (0x2d : UInt8) ∉ p) : split p = [p] := by
  induction p with
  | nil => rfl
  | cons b p ih =>
    have hb : b ≠ 0x2d := fun h => hp (by simp [h])
    rw [split, if_neg hb, ih (fun h => hp (by simp [h]))]

theorem split_dashed : ∀ ps : List Bytes, ps ≠ [] → (∀ p ∈ ps, (0x2d : UInt8) ∉ p) → split (dashed ps) = ps
  | [], h, _ => absurd rfl h
  | [p], _, h => by rw [dashed_single]; exact split_single p (h p (by simp))
  | p :: q :: qs, _, h => by
    rw [dashed_cons, split_append p _ (h p (by simp)),
      split_dashed (q :: qs) (by simp) (fun x hx => h x (by simp [hx]))]

theorem split_spec (s : Bytes) : dashed (split s) = s ∧ ∀ p ∈ split s, (0x2d : UInt8) ∉ p := by
  induction s with
  | nil => exact ⟨by simp [split, dashed_single], by simp [split]⟩
  | cons b s ih =>
    obtain ⟨h1, h2⟩ := ih
    simp only [split]
    have hne := split_ne_nil s
    by_cases hb : b = 0x2d
    · rw [if_pos hb]
      cases hs : split s with
      | nil => exact absurd hs hne
      | cons p ps =>
        rw [hs] at h1 h2
        refine ⟨by rw [dashed_cons, h1, hb]; rfl, ?_⟩
        intro q hq
        rcases List.mem_cons.mp hq with rfl | hq
        · simp
        · exact h2 q hq
    · rw [if_neg hb]
      cases hs : split s with
      | nil => exact absurd hs hne
      | cons p ps =>
        rw [hs] at h1 h2
        refine ⟨?_, ?_⟩
        · cases ps with
          | nil => simp only [dashed_single] at *; rw [h1]
          | cons q qs => simp only [dashed_cons] at *; rw [List.cons_append, h1]
        · intro q hq
          rcases List.mem_cons.mp hq with rfl | hq
          · simp only [List.mem_cons, not_or]
            exact ⟨fun h => hb h.symm, h2 p (by simp)⟩
          · exact h2 q (by simp [hq])

/-! ### decimal numbers -/

theorem digits_spec (s : Bytes) : ∀ n, digits n s =
    if ∀ b ∈ s, isDigit b then some (s.foldl (fun n b => 10 * n + (b.toNat - 0x30)) n) else none := by
  induction s with
  | nil => intro n; simp [digits]
  | cons b s ih =>
    intro n
    rw [digits]
    have hb : (0x30 ≤ b ∧ b ≤ 0x39) ↔ isDigit b := by
      simp only [isDigit, UInt8.le_iff_toNat_le]; rfl
    by_cases h : isDigit b
    · rw [if_pos (hb.mpr h), ih]
      have e : n * 10 + (b - 0x30).toNat = 10 * n + (b.toNat - 0x30) := by
        have hle : (0x30 : UInt8) ≤ b := (hb.mpr h).1
        rw [UInt8.toNat_sub_of_le _ _ hle]
        show n * 10 + (b.toNat - 0x30) = _
        omega
      rw [e]
      simp only [List.mem_cons, forall_eq_or_imp, h, true_and, List.foldl_cons]
    · rw [if_neg (fun h' => h (hb.mp h'))]
      simp [h]

theorem unsigned_spec (d : Bytes) (x : Int) :
    unsigned false d = some x ↔ ∃ n : Nat, x = n ∧ n < 2 ^ 63 ∧ IsDecimal n d := by
  rw [unsigned]
  by_cases hd : d = []
  · rw [if_pos hd]
    constructor
    · intro h; cases h
    · rintro ⟨n, _, _, h, _⟩; exact absurd hd h
  · rw [if_neg hd, digits_spec]
    by_cases hall : ∀ b ∈ d, isDigit b
    · rw [if_pos hall]
      simp only [Bool.false_eq_true, if_false]
      constructor
      · intro h
        split at h
        · rename_i hlt
          cases h
          exact ⟨_, rfl, hlt, hd, hall, rfl⟩
        · cases h
      · rintro ⟨n, rfl, hlt, _, _, hv⟩
        rw [decValue] at hv
        rw [hv, if_pos hlt]
    · rw [if_neg hall]
      constructor
      · intro h; cases h
      · rintro ⟨n, _, _, _, h, _⟩; exact absurd h hall

theorem atoi_group (s : Bytes) (hs : (0x2d : UInt8) ∉ s) (x : Int) :
    atoi s = some x ↔ ∃ n : Nat, x = n ∧ IsGroup n s := by
  have plus_not : ∀ n d, ¬ IsDecimal n ((0x2b : UInt8) :: d) := by
    rintro n d ⟨_, h, _⟩
    have := h 0x2b (by simp)
    revert this; decide
  have hm : s.head? ≠ some 0x2d := fun h => hs (List.mem_of_head? h)
  rw [atoi, signOf, if_neg hm]
  by_cases hp : s.head? = some 0x2b
  · rw [if_pos hp]
    cases s with
    | nil => cases hp
    | cons b d =>
      simp only [List.head?_cons, Option.some.injEq] at hp
      subst hp
      rw [unsigned_spec]
      constructor
      · rintro ⟨n, h1, h2, h3⟩; exact ⟨n, h1, h2, .inr ⟨d, rfl, h3⟩⟩
      · rintro ⟨n, h1, h2, h3 | ⟨d', h3, h4⟩⟩
        · exact absurd h3 (plus_not _ _)
        · cases h3; exact ⟨n, h1, h2, h4⟩
  · rw [if_neg hp, unsigned_spec]
    constructor
    · rintro ⟨n, h1, h2, h3⟩; exact ⟨n, h1, h2, .inl h3⟩
    · rintro ⟨n, h1, h2, h3 | ⟨d', h3, _⟩⟩
      · exact ⟨n, h1, h2, h3⟩
      · subst h3; exact absurd rfl hp

theorem digit_toNat (k : Nat) (h : k < 10) : (0x30 + UInt8.ofNat k : UInt8).toNat = 0x30 + k := by
  rw [UInt8.toNat_add, UInt8.toNat_ofNat']
  show (48 + k % 256) % 256 = 48 + k
  omega

theorem itoa_spec (n : Nat) : IsCanonicalDecimal n (itoa n) ∧ (n ≠ 0 → (itoa n).head? ≠ some 0x30) := by
  induction n using Nat.strongRecOn with
  | _ n ih =>
    rw [itoa]
    by_cases h : n < 10
    · rw [if_pos h]
      refine ⟨⟨⟨by simp, ?_, ?_⟩, .inl rfl⟩, ?_⟩
      · intro b hb
        rw [List.mem_singleton] at hb
        subst hb
        rw [isDigit, digit_toNat n h]; omega
      · simp [decValue, digit_toNat n h]
      · intro h0 h1
        simp only [List.head?_cons, Option.some.injEq] at h1
        have := congrArg UInt8.toNat h1
        rw [digit_toNat n h] at this
        change 48 + n = 48 at this
        omega
    · rw [if_neg h]
      obtain ⟨⟨⟨h1, h2, h3⟩, h4⟩, h5⟩ := ih (n / 10) (by omega)
      have hh : (itoa (n / 10) ++ [0x30 + UInt8.ofNat (n % 10)]).head? = (itoa (n / 10)).head? := by
        cases hi : itoa (n / 10) with
        | nil => exact absurd hi h1
        | cons a l => rfl
      have hne : (itoa (n / 10) ++ [0x30 + UInt8.ofNat (n % 10)]).head? ≠ some 0x30 := by
        rw [hh]; exact h5 (by omega)
      refine ⟨⟨⟨by simp, ?_, ?_⟩, .inr hne⟩, fun _ => hne⟩
      · intro b hb
        rcases List.mem_append.mp hb with hb | hb
        · exact h2 b hb
        · rw [List.mem_singleton] at hb
          subst hb
          rw [isDigit, digit_toNat _ (by omega)]; omega
      · rw [decValue] at *
        rw [List.foldl_append, h3]
        simp only [List.foldl_cons, List.foldl_nil, digit_toNat (n % 10) (by omega)]
        omega

theorem dash_not_digit {s : Bytes} (h : ∀ b ∈ s, isDigit b) : (0x2d : UInt8) ∉ s := by
  intro hm
  have := h _ hm
  revert this; decide

theorem itoa_no_dash (n : Nat) : (0x2d : UInt8) ∉ itoa n := dash_not_digit (itoa_spec n).1.1.2.1

theorem atoi_itoa (n : Nat) (h : n < 2 ^ 63) : atoi (itoa n) = some (n : Int) :=
  (atoi_group _ (itoa_no_dash n) _).mpr ⟨n, rfl, h, .inl (itoa_spec n).1.1⟩

theorem dec_bound : ∀ (s : Bytes), (∀ b ∈ s, isDigit b) → ∀ n, s.foldl (fun n b => 10 * n + (b.toNat - 0x30)) n
    = n * 10 ^ s.length + decValue s ∧ decValue s < 10 ^ s.length := by
  intro s
  induction s with
  | nil => intro _ n; simp [decValue]
  | cons b s ih =>
    intro hd n
    have hb := hd b (by simp)
    obtain ⟨i1, i2⟩ := ih (fun b hb => hd b (by simp [hb])) (10 * n + (b.toNat - 0x30))
    obtain ⟨j1, _⟩ := ih (fun b hb => hd b (by simp [hb])) (10 * 0 + (b.toNat - 0x30))
    have hp : 10 ^ (b :: s).length = 10 * 10 ^ s.length := by rw [List.length_cons, Nat.pow_succ, Nat.mul_comm]
    have hdv : decValue (b :: s) = (10 * 0 + (b.toNat - 0x30)) * 10 ^ s.length + decValue s := by
      rw [decValue, List.foldl_cons]; exact j1
    rw [List.foldl_cons, i1, hdv, hp]
    refine ⟨?_, ?_⟩
    · simp only [Nat.mul_zero, Nat.zero_add, Nat.add_mul, Nat.mul_comm 10 n, Nat.mul_assoc, Nat.add_assoc]
    · have h9 : (10 * 0 + (b.toNat - 0x30)) * 10 ^ s.length ≤ 9 * 10 ^ s.length :=
        Nat.mul_le_mul_right _ (by have := hb.2; omega)
      omega

theorem decimal_unique : ∀ n (a b : Bytes), IsCanonicalDecimal n a → IsCanonicalDecimal n b → a = b := by
  have same : ∀ (a b : Bytes), a.length = b.length → (∀ x ∈ a, isDigit x) → (∀ x ∈ b, isDigit x) →
      decValue a = decValue b → a = b := by
    intro a
    induction a with
    | nil => intro b hl _ _ _; cases b <;> simp_all
    | cons x a ih =>
      intro b hl ha hb he
      cases b with
      | nil => simp at hl
      | cons y b =>
        have hl : a.length = b.length := by simpa using hl
        have ha' : ∀ x ∈ a, isDigit x := fun z hz => ha z (by simp [hz])
        have hb' : ∀ x ∈ b, isDigit x := fun z hz => hb z (by simp [hz])
        obtain ⟨a1, a2⟩ := dec_bound a ha' (10 * 0 + (x.toNat - 0x30))
        obtain ⟨b1, b2⟩ := dec_bound b hb' (10 * 0 + (y.toNat - 0x30))
        have ea : decValue (x :: a) = _ := a1
        have eb : decValue (y :: b) = _ := b1
        rw [ea, eb, hl] at he
        rw [hl] at a2
        have hx := ha x (by simp)
        have hy := hb y (by simp)
        have hp : 0 < 10 ^ b.length := Nat.pow_pos (by decide)
        have e1 := congrArg (· / 10 ^ b.length) he
        have e2 := congrArg (· % 10 ^ b.length) he
        simp only [Nat.mul_add_mod_self_right, Nat.mod_eq_of_lt a2, Nat.mod_eq_of_lt b2] at e2
        simp only [Nat.mul_comm _ (10 ^ b.length), Nat.mul_add_div hp, Nat.div_eq_of_lt a2,
          Nat.div_eq_of_lt b2, Nat.add_zero] at e1
        have exy : x = y := by
          apply UInt8.toNat_inj.mp
          have h1 := hx.1
          have h2 := hy.1
          omega
        rw [exy, ih b hl ha' hb' e2]
  have lead : ∀ n (a : Bytes), IsCanonicalDecimal n a → a.length = 1 ∨ 10 ^ (a.length - 1) ≤ n := by
    rintro n a ⟨⟨h1, h2, h3⟩, h4 | h4⟩
    · exact .inl h4
    · cases a with
      | nil => exact absurd rfl h1
      | cons x a =>
        right
        obtain ⟨a1, _⟩ := dec_bound a (fun z hz => h2 z (by simp [hz])) (10 * 0 + (x.toNat - 0x30))
        have ea : decValue (x :: a) = _ := a1
        have hx := h2 x (by simp)
        have hne : x.toNat ≠ 0x30 := fun he => h4 (by
          rw [List.head?_cons, Option.some.injEq]; exact UInt8.toNat_inj.mp he)
        rw [← h3, ea, List.length_cons, Nat.add_sub_cancel]
        have : 1 * 10 ^ a.length ≤ (10 * 0 + (x.toNat - 0x30)) * 10 ^ a.length :=
          Nat.mul_le_mul_right _ (by have := hx.1; omega)
        omega
  intro n a b ha hb
  refine same a b ?_ ha.1.2.1 hb.1.2.1 (ha.1.2.2.trans hb.1.2.2.symm)
  have la := lead n a ha
  have lb := lead n b hb
  have ua := (dec_bound a ha.1.2.1 0).2
  have ub := (dec_bound b hb.1.2.1 0).2
  rw [ha.1.2.2] at ua
  rw [hb.1.2.2] at ub
  have na : a.length ≠ 0 := fun h => ha.1.1 (List.length_eq_zero_iff.mp h)
  have nb : b.length ≠ 0 := fun h => hb.1.1 (List.length_eq_zero_iff.mp h)
  rcases Nat.lt_trichotomy a.length b.length with hlt | he | hlt
  · exfalso
    have : 10 ^ a.length ≤ 10 ^ (b.length - 1) := Nat.pow_le_pow_right (by decide) (by omega)
    rcases lb with lb | lb <;> omega
  · exact he
  · exfalso
    have : 10 ^ b.length ≤ 10 ^ (a.length - 1) := Nat.pow_le_pow_right (by decide) (by omega)
    rcases la with la | la <;> omega

theorem formats_unique : ∀ (ds : List Nat) (ps qs : List Bytes), ps.length = ds.length → qs.length = ds.length →
    (∀ x ∈ ds.zip ps, IsCanonicalDecimal x.1 x.2) → (∀ x ∈ ds.zip qs, IsCanonicalDecimal x.1 x.2) → ps = qs := by
  intro ds
  induction ds with
  | nil => intro ps qs h1 h2 _ _; cases ps <;> cases qs <;> simp_all
  | cons d ds ih =>
    intro ps qs h1 h2 h3 h4
    cases ps with
    | nil => simp at h1
    | cons p ps =>
      cases qs with
      | nil => simp at h2
      | cons q qs =>
        rw [List.zip_cons_cons] at h3 h4
        rw [decimal_unique d p q (h3 (d, p) (by simp)) (h4 (d, q) (by simp)),
          ih ps qs (by simpa using h1) (by simpa using h2) (fun x hx => h3 x (by simp [hx]))
            (fun x hx => h4 x (by simp [hx]))]

/-! ### the bit arithmetic -/

theorem shl_one (r : Nat) : ((1 : BitVec 32) <<< r).toNat = 2 ^ r % 2 ^ 32 := by
  rw [BitVec.toNat_shiftLeft, Nat.shiftLeft_eq]; simp

theorem mask_toNat (r : Nat) (hr : r ≤ 32) : (((1 : BitVec 32) <<< r) - 1).toNat = 2 ^ r - 1 := by
  have h1 := shl_one r
  have hp : 0 < 2 ^ r := Nat.two_pow_pos r
  have hle : 2 ^ r ≤ 2 ^ 32 := Nat.pow_le_pow_right (by decide) hr
  rw [BitVec.toNat_sub, h1]
  show (2 ^ 32 - 1 + 2 ^ r % 2 ^ 32) % 2 ^ 32 = 2 ^ r - 1
  rcases Nat.lt_or_eq_of_le hle with h | h
  · rw [Nat.mod_eq_of_lt h]; omega
  · rw [h]

theorem and_mask (n : BitVec 32) (r : Nat) (hr : r ≤ 32) :
    (n &&& (((1 : BitVec 32) <<< r) - 1)).toNat = n.toNat % 2 ^ r := by
  rw [BitVec.toNat_and, mask_toNat r hr, Nat.and_two_pow_sub_one_eq_mod]

/-- Extracting one group. -/
theorem group_toNat (n : BitVec 32) (w k : Nat) (h : w + k ≤ 32) :
    ((n &&& (((1 : BitVec 32) <<< (w + k)) - ((1 : BitVec 32) <<< k))) >>> k).toNat
      = n.toNat / 2 ^ k % 2 ^ w := by
  have hk : 2 ^ k ≤ 2 ^ (w + k) := Nat.pow_le_pow_right (by decide) (by omega)
  have hle : 2 ^ (w + k) ≤ 2 ^ 32 := Nat.pow_le_pow_right (by decide) h
  have hp : 0 < 2 ^ k := Nat.two_pow_pos k
  have hm : (((1 : BitVec 32) <<< (w + k)) - ((1 : BitVec 32) <<< k)).toNat = 2 ^ (w + k) - 2 ^ k := by
    rw [BitVec.toNat_sub, shl_one, shl_one]
    rcases Nat.lt_or_eq_of_le hle with h1 | h1
    · rw [Nat.mod_eq_of_lt h1, Nat.mod_eq_of_lt (Nat.lt_of_le_of_lt hk h1)]; omega
    · rw [h1]
      rcases Nat.lt_or_eq_of_le hk with h2 | h2
      · rw [Nat.mod_eq_of_lt (by omega : 2 ^ k < 2 ^ 32)]; omega
      · rw [h2, h1]
  have hs : (2 ^ (w + k) - 2 ^ k) >>> k = 2 ^ w - 1 := by
    rw [Nat.shiftRight_eq_div_pow, Nat.pow_add]
    have : 2 ^ w * 2 ^ k - 2 ^ k = (2 ^ w - 1) * 2 ^ k := by rw [Nat.sub_mul, Nat.one_mul]
    rw [this, Nat.mul_div_cancel _ hp]
  rw [BitVec.toNat_ushiftRight, BitVec.toNat_and, hm, Nat.shiftRight_and_distrib, hs,
    Nat.and_two_pow_sub_one_eq_mod, Nat.shiftRight_eq_div_pow]

/-- The groups of a number. -/
def groups : List Nat → Nat → List Nat
  | [], _ => []
  | w :: ws, n => n / 2 ^ ws.sum % 2 ^ w :: groups ws n

theorem groups_length (ws : List Nat) (n : Nat) : (groups ws n).length = ws.length := by
  induction ws with
  | nil => rfl
  | cons w ws ih => simp [groups, ih]

theorem groups_inRange (ws : List Nat) (n : Nat) : InRange ws (groups ws n) := by
  induction ws with
  | nil => trivial
  | cons w ws ih => exact ⟨Nat.mod_lt _ (Nat.two_pow_pos w), ih⟩

theorem groups_value (ws : List Nat) (n : Nat) : positional ws (groups ws n) = n % 2 ^ ws.sum := by
  induction ws with
  | nil => simp [positional, Nat.mod_one]
  | cons w ws ih =>
    rw [groups, positional, ih, List.sum_cons, Nat.add_comm w, Nat.pow_add, Nat.mod_mul]
    rw [Nat.mul_comm, Nat.add_comm]

theorem positional_lt : ∀ {ws cs : List Nat}, InRange ws cs → positional ws cs < 2 ^ ws.sum
  | [], [], _ => by simp [positional]
  | [], _ :: _, h => h.elim
  | _ :: _, [], h => h.elim
  | w :: ws, c :: cs, ⟨h1, h2⟩ => by
    have ih := positional_lt h2
    rw [positional, List.sum_cons, Nat.pow_add]
    calc c * 2 ^ ws.sum + positional ws cs < c * 2 ^ ws.sum + 2 ^ ws.sum := by omega
      _ = (c + 1) * 2 ^ ws.sum := by rw [Nat.add_mul, Nat.one_mul]
      _ ≤ 2 ^ w * 2 ^ ws.sum := Nat.mul_le_mul_right _ h1

theorem inRange_length : ∀ {ws cs : List Nat}, InRange ws cs → ws.length = cs.length
  | [], [], _ => rfl
  | [], _ :: _, h => h.elim
  | _ :: _, [], h => h.elim
  | _ :: ws, _ :: cs, h => by simp [inRange_length h.2]

/-- Positional values determine in-range groups. -/
theorem positional_inj : ∀ {ws cs ds : List Nat}, InRange ws cs → InRange ws ds →
    positional ws cs = positional ws ds → cs = ds
  | [], [], [], _, _, _ => rfl
  | [], _ :: _, _, h, _, _ => h.elim
  | [], [], _ :: _, _, h, _ => h.elim
  | _ :: _, [], _, h, _, _ => h.elim
  | _ :: _, _ :: _, [], _, h, _ => h.elim
  | w :: ws, c :: cs, d :: ds, ⟨_, h2⟩, ⟨_, h2'⟩, h => by
    have l1 := positional_lt h2
    have l2 := positional_lt h2'
    rw [positional, positional] at h
    have e1 := congrArg (· / 2 ^ ws.sum) h
    have e2 := congrArg (· % 2 ^ ws.sum) h
    simp only [Nat.mul_add_mod_self_right, Nat.mod_eq_of_lt l1, Nat.mod_eq_of_lt l2] at e2
    have hp : 0 < 2 ^ ws.sum := Nat.two_pow_pos _
    simp only [Nat.mul_comm _ (2 ^ ws.sum), Nat.mul_add_div hp, Nat.div_eq_of_lt l1,
      Nat.div_eq_of_lt l2, Nat.add_zero] at e1
    rw [e1, positional_inj h2 h2' e2]

theorem orValue_eq : ∀ {ws cs : List Nat}, InRange ws cs → ws.sum ≤ 32 → orValue ws cs = positional ws cs
  | [], [], _, _ => rfl
  | [], _ :: _, h, _ => h.elim
  | _ :: _, [], h, _ => h.elim
  | w :: ws, c :: cs, h, hs => by
    have hlt := positional_lt h
    have l1 := positional_lt h.2
    rw [List.sum_cons] at hs
    have hle : 2 ^ (w :: ws).sum ≤ 2 ^ 32 := Nat.pow_le_pow_right (by decide) (by simpa using hs)
    rw [positional] at hlt
    rw [orValue, positional, orValue_eq h.2 (by omega), Nat.mod_eq_of_lt (by omega)]
    rw [← Nat.shiftLeft_eq, Nat.shiftLeft_add_eq_or_of_lt l1]

theorem sub_ofNat (w k : Nat) :
    BitVec.ofNat 32 (w + k) - BitVec.ofNat 32 w = BitVec.ofNat 32 k := by
  apply BitVec.eq_of_toNat_eq
  rw [BitVec.toNat_sub, BitVec.toNat_ofNat, BitVec.toNat_ofNat, BitVec.toNat_ofNat]
  omega

theorem rawLoop_eq (n : BitVec 32) : ∀ ws : List Nat, ws.sum ≤ 32 →
    rawLoop n (BitVec.ofNat 32 ws.sum) (ws.map (BitVec.ofNat 32)) = (groups ws n.toNat).map itoa
  | [], _ => rfl
  | w :: ws, h => by
    rw [List.sum_cons] at h
    have hk : (BitVec.ofNat 32 ws.sum).toNat = ws.sum := by rw [BitVec.toNat_ofNat]; omega
    have hwk : (BitVec.ofNat 32 (w + ws.sum)).toNat = w + ws.sum := by rw [BitVec.toNat_ofNat]; omega
    rw [List.map_cons, rawLoop, List.sum_cons, sub_ofNat w ws.sum]
    simp only [hk, hwk, group_toNat n w ws.sum h, groups, List.map_cons]
    rw [rawLoop_eq n ws (by omega)]

theorem shl_ofInt (x k : Nat) : ((BitVec.ofInt 32 (x : Int)) <<< k).toNat = (x * 2 ^ k) % 2 ^ 32 := by
  rw [BitVec.ofInt_natCast, BitVec.toNat_shiftLeft, BitVec.toNat_ofNat, Nat.shiftLeft_eq, Nat.mod_mul_mod]

theorem strLoop_eq : ∀ (ws : List Nat) (ds : List Bytes) (cs : List Nat) (n : BitVec 32), ws.sum ≤ 32 →
    ds.map atoi = cs.map (fun c : Nat => some (c : Int)) → ds.length = ws.length →
    ∃ m, strLoop n (BitVec.ofNat 32 ws.sum) ds (ws.map (BitVec.ofNat 32)) = some m ∧
      m.toNat = n.toNat ||| orValue ws cs
  | [], [], cs, n, _, he, _ => by
    cases cs <;> simp at he
    exact ⟨n, rfl, by simp [orValue]⟩
  | w :: ws, d :: ds, [], n, h, he, hl => by simp at he
  | w :: ws, d :: ds, c :: cs, n, h, he, hl => by
    rw [List.sum_cons] at h
    have hk : (BitVec.ofNat 32 ws.sum).toNat = ws.sum := by rw [BitVec.toNat_ofNat]; omega
    simp only [List.map_cons, List.cons.injEq] at he
    obtain ⟨m, h1, h2⟩ := strLoop_eq ws ds cs (n ||| (BitVec.ofInt 32 (c : Int) <<< ws.sum)) (by omega) he.2
      (by simpa using hl)
    refine ⟨m, ?_, ?_⟩
    · rw [List.map_cons, strLoop, he.1, List.sum_cons]
      simp only [sub_ofNat w ws.sum, hk]
      exact h1
    · rw [h2, BitVec.toNat_or, shl_ofInt, orValue, Nat.or_assoc]
  | [], _ :: _, _, _, _, _, hl => by simp at hl
  | _ :: _, [], _, _, _, _, hl => by simp at hl

theorem strLoop_none : ∀ (ds : List Bytes) (ws : List (BitVec 32)) (n r : BitVec 32), ds.length = ws.length →
    (∃ d ∈ ds, atoi d = none) → strLoop n r ds ws = none
  | [], _, _, _, _, h => by simp at h
  | d :: ds, [], _, _, hl, _ => by simp at hl
  | d :: ds, w :: ws, n, r, hl, h => by
    rw [strLoop]
    cases ha : atoi d with
    | none => rfl
    | some x =>
      apply strLoop_none ds ws _ _ (by simpa using hl)
      obtain ⟨e, he, hn⟩ := h
      rcases List.mem_cons.mp he with rfl | he
      · rw [ha] at hn; cases hn
      · exact ⟨e, he, hn⟩

end Pc
end M3
