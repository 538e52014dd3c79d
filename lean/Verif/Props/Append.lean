import Verif.Props.Memory

/- C106: what appending to the value of a parsed parameter does to the others. -/

set_option autoImplicit false
set_option linter.unusedSimpArgs false

namespace M3

namespace Spec

/-- Specification: what becomes of the octets `old` if `xs` is written over an array, beginning `d` octets before them. -/
def over (old : List UInt8) (d : Nat) (xs : List UInt8) : List UInt8 := (xs.drop d).take old.length ++ old.drop (xs.length - d)

end Spec

open Spec

namespace Appending

theorem places_mono (o : Nat) (qs : List (Nat × Bytes)) : ∀ x ∈ places o qs, o + 4 ≤ x.1 := by
  induction qs generalizing o with
  | nil => intro x hx; cases hx
  | cons y ys ih =>
    intro x hx
    simp only [places, List.mem_cons] at hx
    rcases hx with rfl | hx
    · exact Nat.le_refl _
    · have := ih _ x hx; omega

/-- Places that are not the same are in order, with padding, tag and length between them. -/
theorem places_apart (o : Nat) (qs : List (Nat × Bytes)) {x y : Nat × Nat} (hx : x ∈ places o qs) (hy : y ∈ places o qs) :
    x = y ∨ x.1 + x.2 + pad x.2 + 4 ≤ y.1 ∨ y.1 + y.2 + pad y.2 + 4 ≤ x.1 := by
  induction qs generalizing o with
  | nil => cases hx
  | cons q qs ih =>
    simp only [places, List.mem_cons] at hx hy
    rcases hx with rfl | hx <;> rcases hy with rfl | hy
    · exact .inl rfl
    · have := places_mono _ _ _ hy
      exact .inr (.inl (by simp only; omega))
    · have := places_mono _ _ _ hx
      exact .inr (.inr (by simp only; omega))
    · exact ih _ hx hy

/-- A part before the place that is written to. -/
theorem part_before (mem xs : Bytes) {e : Nat} {y : Nat × Nat} (h : y.1 + y.2 ≤ e) (he : e ≤ mem.length) : part (mem.take e ++ xs) y = part mem y := by
  have ht : (mem.take e).length = e := by rw [List.length_take]; omega
  simp only [part]
  rw [List.drop_append_of_le_length (by omega), List.take_append_of_le_length (by rw [List.length_drop]; omega), List.drop_take, List.take_take,
    Nat.min_eq_left (by omega)]

/-- A part behind the place that is written to. -/
theorem part_behind (mem xs : Bytes) (e : Nat) {y : Nat × Nat} (he : e ≤ y.1) (hy : y.1 + y.2 ≤ mem.length) (hf : e + xs.length ≤ mem.length) :
    part (mem.take e ++ xs ++ mem.drop (e + xs.length)) y = over (part mem y) (y.1 - e) xs := by
  have hl : (part mem y).length = y.2 := by simp only [part, List.length_take, List.length_drop]; omega
  have hte : (mem.take e).length = e := by rw [List.length_take]; omega
  rw [over, hl]
  simp only [part]
  apply List.ext_getElem?
  intro k
  simp only [List.getElem?_append, List.getElem?_take, List.getElem?_drop, List.length_append, List.length_take, List.length_drop, hte]
  split <;> repeat' split
  all_goals first | (exfalso; omega) | rfl | (congr 1; omega)

theorem lastPlace_mem {n : PName} {qs : List (Nat × Bytes)} {x : Nat × Nat} (h : lastPlace n qs = some x) : x ∈ places 8 qs := by
  rw [lastPlace, Option.map_eq_some_iff] at h
  obtain ⟨⟨q, y⟩, h1, rfl⟩ := h
  exact (List.of_mem_zip (List.mem_filter.mp (List.mem_of_getLast? h1)).1).2

end Appending

/-- C106: what lies at the places of the parameters after appending to the value of one of them: the others before it are as they were; those behind it
begin at least four octets and the padding later and are overwritten as far as the appended octets reach; but if these do not fit into the array,
nothing is written. -/
theorem c106_places (o : Nat) (qs : List (Nat × Bytes)) (b rest xs : Bytes) {x y : Nat × Nat} (hx : x ∈ places o qs) (hy : y ∈ places o qs)
    (hin : y.1 + y.2 ≤ b.length) :
    part (Window.append (b ++ rest) ⟨x.1, x.2⟩ xs).1 y =
      (if x.1 < y.1 ∧ x.1 + x.2 + xs.length ≤ (b ++ rest).length then over (part b y) (y.1 - (x.1 + x.2)) xs else part b y) ∧
    (x.1 < y.1 → x.1 + x.2 + pad x.2 + 4 ≤ y.1) := by
  have hpart : part (b ++ rest) y = part b y := by
    simp only [part]
    rw [List.drop_append_of_le_length (by omega), List.take_append_of_le_length (by rw [List.length_drop]; omega)]
  have hap := Appending.places_apart o qs hx hy
  have hlt : x.1 < y.1 → x.1 + x.2 + pad x.2 + 4 ≤ y.1 := by
    rcases hap with rfl | h | h <;> intro hl <;> omega
  refine ⟨?_, hlt⟩
  simp only [Window.append]
  by_cases hf : x.1 + x.2 + xs.length ≤ (b ++ rest).length
  · simp only [hf, if_true, and_true]
    by_cases hl : x.1 < y.1
    · rw [if_pos hl, Appending.part_behind _ _ _ (by have := hlt hl; omega) (by simp only [List.length_append]; omega) hf, hpart]
    · rw [if_neg hl, ← hpart]
      have hle : y.1 + y.2 ≤ x.1 + x.2 := by rcases hap with rfl | h | h <;> omega
      rw [List.append_assoc, Appending.part_before _ _ hle (by omega)]
  · simp only [hf, if_false, and_false, hpart]

/-- C106: `m.X.Data = append(m.X.Data, xs...)` on a message parsed from a buffer `b` that is the beginning of an array `b ++ rest`. The result is the old
value with `xs` behind it. Of the other parameters of the message, those that came before it in `b` are as they were, and those that came behind it keep
tag and length, while their values are overwritten as far as `xs` reaches; unless the array is too small for that, then all are as they were. -/
theorem c106_append (b rest xs : Bytes) (w : MsgRef) (h : M3UA.parseRef b = .ok w) (qs : List (Nat × Bytes)) (hq : ParamSeq (b.drop 8) qs) (m : M3UA)
    (hm : w.read b = .ok m) (n₀ : PName) (p₀ : Param) (hp₀ : m.field n₀ = some p₀) :
    ∃ x, lastPlace n₀ qs = some x ∧ p₀.data = part b x ∧
      let after := Window.append (b ++ rest) ⟨x.1, x.2⟩ xs
      (∀ s, after.2 = some s → s.read after.1 = p₀.data ++ xs) ∧ (after.2 = none → after.1 = b ++ rest) ∧
      (after.2 = none ↔ b.length + rest.length < x.1 + x.2 + xs.length) ∧
      ∃ m', w.read (after.1.take b.length) = .ok m' ∧ m'.kind = m.kind ∧ m'.header = { m.header with payload := (after.1.take b.length).drop 8 } ∧
        (∀ n, m.field n = none → m'.field n = none) ∧
        ∀ n p, m.field n = some p → ∃ y, lastPlace n qs = some y ∧ (x.1 < y.1 → x.1 + x.2 + pad x.2 + 4 ≤ y.1) ∧
          m'.field n = some (if x.1 < y.1 ∧ after.2 ≠ none then { p with data := over p.data (y.1 - (x.1 + x.2)) xs } else p) := by
  obtain ⟨m₁, _, e1, -, -, -, hf, -⟩ := c91_window b b rfl w h qs hq
  rw [hm] at e1
  cases e1
  obtain ⟨x, hx, hxin, hxd, -⟩ := hf n₀ p₀ hp₀
  refine ⟨x, hx, hxd, ?_⟩
  have hnone : (Window.append (b ++ rest) ⟨x.1, x.2⟩ xs).2 = none ↔ b.length + rest.length < x.1 + x.2 + xs.length := by
    simp only [Window.append, List.length_append]
    split <;> simp <;> omega
  have hsome : (Window.append (b ++ rest) ⟨x.1, x.2⟩ xs).2 ≠ none ↔ x.1 + x.2 + xs.length ≤ (b ++ rest).length := by
    rw [ne_eq, hnone, List.length_append]; omega
  have hlen : (Window.append (b ++ rest) ⟨x.1, x.2⟩ xs).1.length = b.length + rest.length := by
    simp only [Window.append]
    split
    · rename_i hc
      simp only [List.length_append, List.length_take, List.length_drop] at hc ⊢
      omega
    · exact List.length_append
  refine ⟨?_, ?_, hnone, ?_⟩
  · intro s hs
    have hc := hsome.mp (by rw [hs]; simp)
    simp only [Window.append, hc, if_true, Option.some.injEq] at hs ⊢
    subst hs
    have hte : ((b ++ rest).take (x.1 + x.2)).length = x.1 + x.2 := by rw [List.length_take]; omega
    simp only [Window.read]
    rw [List.append_assoc, List.drop_append_of_le_length (by omega), ← List.append_assoc, List.take_append_of_le_length (by
      simp only [List.length_append, List.length_drop, hte]; omega), List.take_of_length_le (by simp only [List.length_append, List.length_drop, hte]; omega),
      hxd, part, List.drop_take, Nat.add_sub_cancel_left, List.drop_append_of_le_length (by omega),
      List.take_append_of_le_length (by rw [List.length_drop]; omega)]
  · intro hs
    simp only [Window.append] at hs ⊢
    split at hs
    · cases hs
    · rename_i hc; rw [if_neg hc]
  · have htl : ((Window.append (b ++ rest) ⟨x.1, x.2⟩ xs).1.take b.length).length = b.length := by rw [List.length_take, hlen]; omega
    obtain ⟨m₁, m', e1, e2, hk, hh, hf', hnone', -⟩ := c91_window b _ htl w h qs hq
    rw [hm] at e1
    cases e1
    refine ⟨m', e2, hk, hh, hnone', fun n p hp => ?_⟩
    obtain ⟨y, hy, hyin, hyd, hy'⟩ := hf' n p hp
    obtain ⟨h1, h2⟩ := c106_places 8 qs b rest xs (Appending.lastPlace_mem hx) (Appending.lastPlace_mem hy) hyin
    have hcut : part ((Window.append (b ++ rest) ⟨x.1, x.2⟩ xs).1.take b.length) y = part (Window.append (b ++ rest) ⟨x.1, x.2⟩ xs).1 y := by
      simp only [part]
      rw [List.drop_take, List.take_take, Nat.min_eq_left (by omega)]
    refine ⟨y, hy, h2, ?_⟩
    rw [hy', hcut, h1, ← hyd]
    simp only [hsome]
    split <;> rfl

/-- C106: so appending no more than four octets and the padding changes no parameter that one can see. -/
theorem c106_harmless (b rest xs : Bytes) (w : MsgRef) (h : M3UA.parseRef b = .ok w) (qs : List (Nat × Bytes)) (hq : ParamSeq (b.drop 8) qs) (m : M3UA)
    (hm : w.read b = .ok m) (n₀ : PName) (p₀ : Param) (hp₀ : m.field n₀ = some p₀) (hxs : xs.length ≤ pad p₀.data.length + 4) :
    ∃ x, lastPlace n₀ qs = some x ∧ ∃ m', w.read ((Window.append (b ++ rest) ⟨x.1, x.2⟩ xs).1.take b.length) = .ok m' ∧ ∀ n, m'.field n = m.field n := by
  obtain ⟨x, hx, hxd, -, -, -, m', e1, -, -, hn, hs⟩ := c106_append b rest xs w h qs hq m hm n₀ p₀ hp₀
  refine ⟨x, hx, m', e1, fun n => ?_⟩
  cases hf : m.field n with
  | none => exact hn n hf
  | some p =>
    obtain ⟨y, hy, hxy, he⟩ := hs n p hf
    rw [he]
    congr 1
    split
    · rename_i hc
      have hl : p₀.data.length = x.2 := by
        obtain ⟨_, _, e1, _, _, _, hf, -⟩ := c91_window b b rfl w h qs hq
        rw [hm] at e1
        cases e1
        obtain ⟨x', hx', hin, -⟩ := hf n₀ p₀ hp₀
        rw [hx] at hx'
        cases hx'
        rw [hxd, part, List.length_take, List.length_drop]
        omega
      have := hxy hc.1
      rw [hl] at hxs
      have hz : over p.data (y.1 - (x.1 + x.2)) xs = p.data := by
        rw [over, List.drop_eq_nil_of_le (by omega), List.take_nil, List.nil_append, Nat.sub_eq_zero_of_le (by omega), List.drop_zero]
      rw [hz]
    · rfl

/-! ## Instances -/

namespace Appending

/-- A DATA message with a Routing Context and a Protocol Data. -/
def twoBytes : Bytes := [1, 0, 1, 1, 0, 0, 0, 32, 0, 6, 0, 8, 0, 0, 0, 7, 2, 16, 0, 16, 0, 0, 0, 1, 0, 0, 0, 2, 3, 4, 5, 6]

theorem two_seq : ParamSeq (twoBytes.drop 8) [(6, [0, 0, 0, 7]), (528, [0, 0, 0, 1, 0, 0, 0, 2, 3, 4, 5, 6])] :=
  ParamSeq.cons 6 [0, 0, 0, 7] [] _ _ (by decide) (by decide) (by decide)
    (ParamSeq.cons 528 [0, 0, 0, 1, 0, 0, 0, 2, 3, 4, 5, 6] [] [] [] (by decide) (by decide) (by decide) .nil)

end Appending

open Appending in
/-- For `c106_append`: a second Routing Context, eight, is appended to the first, and four octets more: the OPC of the Protocol Data becomes the last of
them. -/
example : ∃ w m m', M3UA.parseRef twoBytes = .ok w ∧ w.read twoBytes = .ok m ∧ m.field .routingContext = some ⟨6, 8, [0, 0, 0, 7]⟩ ∧
    lastPlace .routingContext [(6, [0, 0, 0, 7]), (528, [0, 0, 0, 1, 0, 0, 0, 2, 3, 4, 5, 6])] = some (12, 4) ∧
    (Window.append twoBytes ⟨12, 4⟩ [0, 0, 0, 8, 0, 0, 0, 9]).2 = some ⟨12, 12⟩ ∧
    w.read (Window.append twoBytes ⟨12, 4⟩ [0, 0, 0, 8, 0, 0, 0, 9]).1 = .ok m' ∧
    m.field .protocolData = some ⟨528, 16, [0, 0, 0, 1, 0, 0, 0, 2, 3, 4, 5, 6]⟩ ∧
    m'.field .protocolData = some ⟨528, 16, [0, 0, 0, 9, 0, 0, 0, 2, 3, 4, 5, 6]⟩ :=
  ⟨_, _, _, rfl, rfl, rfl, by decide +kernel, by decide +kernel, rfl, rfl, rfl⟩

/-- For `c106_harmless`. -/
example : ([0, 0, 0, 8] : Bytes).length ≤ pad ([0, 0, 0, 7] : Bytes).length + 4 := by decide

end M3
