import Verif.Props.Messages

/- Parameter sequences that start like a given list of parameters. -/

set_option autoImplicit false

namespace M3

open Spec

def tlvs (l : List (Nat × Bytes)) : Bytes := (l.map fun q => tlv q.1 q.2).flatten

theorem tlvs_cons (q : Nat × Bytes) (l : List (Nat × Bytes)) : tlvs (q :: l) = tlv q.1 q.2 ++ tlvs l := rfl

theorem tlvs_append (a b : List (Nat × Bytes)) : tlvs (a ++ b) = tlvs a ++ tlvs b := by simp [tlvs]

theorem presentTlvs_flatten : ∀ l : List (Option (Nat × Bytes)), (presentTlvs l).flatten = tlvs (l.filterMap id)
  | [] => rfl
  | none :: l => by rw [presentTlvs, List.filterMap_cons_none rfl, presentTlvs_flatten]
  | some (t, v) :: l => by
    rw [presentTlvs, List.flatten_cons, presentTlvs_flatten]; rfl

theorem tlv_length (t : Nat) (v : Bytes) : (tlv t v).length = 4 + v.length + pad v.length := by
  simp [tlv, be16]; omega

/-- Parameters that fit their length field. -/
def Fits (l : List (Nat × Bytes)) : Prop := ∀ q ∈ l, q.1 < 65536 ∧ q.2.length ≤ maxValue

theorem seq_tlvs {l : List (Nat × Bytes)} (h : Fits l) : ParamSeq (tlvs l) l := by
  induction l with
  | nil => exact .nil
  | cons q l ih =>
    have := ParamSeq.cons q.1 q.2 (List.replicate (pad q.2.length) 0) (tlvs l) l (h q (.head _)).1 (h q (.head _)).2 (by simp)
      (ih fun q hq => h q (.tail _ hq))
    exact this

theorem be16_inj {a b : Nat} (ha : a < 65536) (hb : b < 65536) (h : be16 a = be16 b) : a = b := by
  simp only [be16, List.cons.injEq, and_true] at h
  have h1 := congrArg UInt8.toNat h.1
  have h2 := congrArg UInt8.toNat h.2
  simp at h1 h2
  omega

theorem seq_length {b : Bytes} {qs : List (Nat × Bytes)} (h : ParamSeq b qs) : b.length ≤ (tlvs qs).length := by
  induction h with
  | nil => exact Nat.le_refl _
  | cut tag value filler h1 h2 h3 => simp [tlvs, tlv_length, be16]; omega
  | cons tag value filler rest ps h1 h2 h3 _ ih =>
    simp only [tlvs_cons, List.length_append, tlv_length]; simp [be16]; omega

/-- What a sequence that starts with the header of a parameter looks like. -/
theorem seq_head {t : Nat} {n : Nat} {x : Bytes} {qs : List (Nat × Bytes)} (ht : t < 65536) (hn : n ≤ maxValue)
    (h : ParamSeq (be16 t ++ be16 (4 + n) ++ x) qs) : n ≤ x.length ∧ ∃ qs', qs = (t, x.take n) :: qs' ∧
      ((x.length < n + pad n ∧ qs' = []) ∨ (n + pad n ≤ x.length ∧ ParamSeq (x.drop (n + pad n)) qs')) := by
  generalize hb : be16 t ++ be16 (4 + n) ++ x = b at h
  cases h with
  | nil => simp [be16] at hb
  | cut tag value filler h1 h2 h3 =>
    have hb : be16 t ++ (be16 (4 + n) ++ x) = be16 tag ++ (be16 (4 + value.length) ++ (value ++ filler)) := by simpa using hb
    obtain ⟨e1, hb⟩ := List.append_inj hb (by simp [be16])
    obtain ⟨e2, rfl⟩ := List.append_inj hb (by simp [be16])
    have e1 := be16_inj ht h1 e1
    have e2 := be16_inj (by unfold maxValue at hn; omega) (by unfold maxValue at h2; omega) e2
    obtain rfl : n = value.length := by omega
    subst e1
    refine ⟨by simp, [], by simp, .inl ⟨by simp; omega, rfl⟩⟩
  | cons tag value filler rest ps h1 h2 h3 h4 =>
    have hb : be16 t ++ (be16 (4 + n) ++ x) = be16 tag ++ (be16 (4 + value.length) ++ (value ++ (filler ++ rest))) := by
      simpa using hb
    obtain ⟨e1, hb⟩ := List.append_inj hb (by simp [be16])
    obtain ⟨e2, rfl⟩ := List.append_inj hb (by simp [be16])
    have e1 := be16_inj ht h1 e1
    have e2 := be16_inj (by unfold maxValue at hn; omega) (by unfold maxValue at h2; omega) e2
    obtain rfl : n = value.length := by omega
    subst e1
    refine ⟨by simp, ps, by simp, .inr ⟨by simp; omega, ?_⟩⟩
    rw [← List.append_assoc, List.drop_append_of_le_length (by simp; omega), List.drop_eq_nil_of_le (by simp; omega)]
    exact h4

/-- If the first `n` bytes of a list of parameters are a sequence of parameters, then these are the first ones of the list, and
the values of all of them are within the `n` bytes. -/
theorem seq_take {l : List (Nat × Bytes)} (hl : Fits l) {n : Nat} (hn : n % 4 = 0) {qs : List (Nat × Bytes)}
    (h : ParamSeq ((tlvs l).take n) qs) : qs <+: l ∧
      ∀ l₁ q l₂, qs = l₁ ++ q :: l₂ → (tlvs l₁).length + 4 + q.2.length ≤ n := by
  induction l generalizing n qs with
  | nil =>
    have : qs = [] := c05_unique _ _ _ h (by rw [show tlvs [] = [] from rfl, List.take_nil]; exact .nil)
    subst this
    exact ⟨List.prefix_refl _, fun l₁ q l₂ h => by simp at h⟩
  | cons p l ih =>
    obtain ⟨h1, h2⟩ := hl p (.head _)
    by_cases h4 : n = 0
    · subst h4
      have : qs = [] := c05_unique _ _ _ h .nil
      subst this
      exact ⟨List.nil_prefix, fun l₁ q l₂ h => by simp at h⟩
    · have e : (tlvs (p :: l)).take n = be16 p.1 ++ be16 (4 + p.2.length) ++
          (p.2 ++ List.replicate (pad p.2.length) 0 ++ tlvs l).take (n - 4) := by
        rw [tlvs_cons, tlv]
        obtain ⟨k, rfl⟩ : ∃ k, n = k + 4 := ⟨n - 4, by omega⟩
        simp [be16]
      rw [e] at h
      obtain ⟨g1, qs', rfl, g2⟩ := seq_head h1 h2 h
      have hpad : (4 + p.2.length + pad p.2.length) % 4 = 0 := by unfold pad; omega
      have gt : ((p.2 ++ List.replicate (pad p.2.length) 0 ++ tlvs l).take (n - 4)).take p.2.length = p.2 := by
        rw [List.take_take, Nat.min_eq_left (by rw [List.length_take] at g1; omega), List.append_assoc, List.take_left]
      rw [gt] at *
      have hlen : (tlvs (p :: l)).length = 4 + p.2.length + pad p.2.length + (tlvs l).length := by
        rw [tlvs_cons, List.length_append, tlv_length]
      rw [List.length_take] at g1
      have key : qs' <+: l ∧ ∀ l₁ q l₂, qs' = l₁ ++ q :: l₂ →
          4 + p.2.length + pad p.2.length + (tlvs l₁).length + 4 + q.2.length ≤ n := by
        rcases g2 with ⟨-, rfl⟩ | ⟨g2, g3⟩
        · exact ⟨List.nil_prefix, fun l₁ q l₂ h => by simp at h⟩
        · rw [List.length_take] at g2
          have : ((p.2 ++ List.replicate (pad p.2.length) 0 ++ tlvs l).take (n - 4)).drop (p.2.length + pad p.2.length) =
              (tlvs l).take (n - (4 + p.2.length + pad p.2.length)) := by
            rw [List.drop_take, List.drop_left' (by simp)]
            congr 1; omega
          rw [this] at g3
          obtain ⟨i1, i2⟩ := ih (fun q hq => hl q (.tail _ hq)) (by omega) g3
          exact ⟨i1, fun l₁ q l₂ hq => by have := i2 l₁ q l₂ hq; omega⟩
      refine ⟨?_, ?_⟩
      · obtain ⟨r, hr⟩ := key.1
        exact ⟨r, by rw [← hr]; rfl⟩
      · intro l₁ q l₂ hq
        cases l₁ with
        | nil =>
          simp only [List.nil_append, List.cons.injEq] at hq
          obtain ⟨rfl, -⟩ := hq
          simp only [tlvs, List.map_nil, List.flatten_nil, List.length_nil]
          omega
        | cons a l₁ =>
          simp only [List.cons_append, List.cons.injEq] at hq
          obtain ⟨rfl, hq⟩ := hq
          have := key.2 l₁ q l₂ hq
          rw [tlvs_cons, List.length_append, tlv_length]
          simp only
          omega

end M3
