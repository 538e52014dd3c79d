import Verif.Lemmas.Pc

/-! Properties C31-C36: point codes. -/

set_option autoImplicit false

namespace M3
open Pc Spec

/-- The Go constant of a variant. -/
def goVariant : PcVariant → Pc.Variant
  | .v383 => variant383
  | .v437 => variant437
  | .v4343 => variant4343
  | .v446 => variant446
  | .v545 => variant545
  | .v662 => variant662
  | .v68 => variant68
  | .v745 => variant745
  | .v77 => variant77
  | .v888 => variant888

theorem variant_ne_none (v : PcVariant) : goVariant v ≠ variantNone := by cases v <;> decide

theorem variant_slice (v : PcVariant) : slice (goVariant v) = v.widths.map (BitVec.ofNat 32) := by
  cases v <;> decide

theorem variant_bits (v : PcVariant) : v.bits ≤ 32 := by cases v <;> decide

theorem variant_bitLength (v : PcVariant) (h : v ≠ .v446) : bitLength (goVariant v) = v.bits := by
  cases v <;> first | rfl | exact absurd rfl h

theorem variant_widths_ne (v : PcVariant) : v.widths ≠ [] := by cases v <;> decide

/-- The constants really spell the widths. -/
theorem variant_name (v : PcVariant) : Formats v.widths (goVariant v) := by
  refine ⟨v.widths.map itoa, by simp, ?_, ?_⟩
  · intro x hx
    rw [List.zip_map_right, List.mem_map] at hx
    obtain ⟨⟨a, b⟩, h, rfl⟩ := hx
    have : a = b := by
      have h2 : ∀ l : List Nat, ∀ x ∈ l.zip l, x.1 = x.2 := by
        intro l; induction l with
        | nil => simp
        | cons a l ih =>
          intro x hx
          rcases List.mem_cons.mp hx with rfl | hx
          · rfl
          · exact ih x hx
      exact h2 _ _ h
    subst this
    exact (itoa_spec a).1
  · cases v <;> decide +kernel

theorem conv_working (n : BitVec 32) (v : PcVariant) (h : v ≠ .v446) :
    convRawToStr n (goVariant v) = some (dashed ((groups v.widths (n.toNat % 2 ^ v.bits)).map itoa)) := by
  have hb : (BitVec.ofNat 32 v.bits).toNat = v.bits := by
    have := variant_bits v
    rw [BitVec.toNat_ofNat]; omega
  rw [convRawToStr, if_neg (variant_ne_none v), variant_slice, variant_bitLength v h]
  simp only [hb]
  rw [join_eq]
  show some (dashed (rawLoop _ (BitVec.ofNat 32 v.widths.sum) _)) = _
  rw [rawLoop_eq _ _ (variant_bits v), and_mask n _ (variant_bits v)]

theorem new_working (raw : BitVec 32) (v : PcVariant) (h : v ≠ .v446) :
    newPointCode raw (goVariant v) = some ⟨raw &&& (((1 : BitVec 32) <<< v.bits) - 1),
      dashed ((groups v.widths (raw.toNat % 2 ^ v.bits)).map itoa), goVariant v⟩ := by
  simp only [newPointCode, PointCode.convertTo, variant_bitLength v h, conv_working _ v h,
    and_mask raw _ (variant_bits v), Nat.mod_mod]

theorem groups_format (ws : List Nat) (n : Nat) : Formats (groups ws n) (dashed ((groups ws n).map itoa)) := by
  refine ⟨_, by simp, ?_, rfl⟩
  generalize groups ws n = l
  induction l with
  | nil => simp
  | cons a l ih =>
    intro x hx
    rw [List.map_cons, List.zip_cons_cons] at hx
    rcases List.mem_cons.mp hx with rfl | hx
    · exact (itoa_spec a).1
    · exact ih x hx

/-- C32: the string of a point code is the dash-separated decimal list of in-range groups whose
positional value is the (masked) raw value. -/
theorem c32_format (raw : BitVec 32) (v : PcVariant) (h : v ≠ .v446) :
    ∃ p cs, newPointCode raw (goVariant v) = some p ∧ InRange v.widths cs ∧
      positional v.widths cs = raw.toNat % 2 ^ v.bits ∧ Formats cs p.string ∧
      p.uint32.toNat = raw.toNat % 2 ^ v.bits ∧ p.variant = goVariant v := by
  refine ⟨_, groups v.widths (raw.toNat % 2 ^ v.bits), new_working raw v h, groups_inRange _ _, ?_, ?_, ?_, rfl⟩
  · rw [groups_value]; exact Nat.mod_mod _ _
  · rw [PointCode.string, if_neg (variant_ne_none v)]; exact groups_format _ _
  · exact and_mask raw _ (variant_bits v)

-- 1234 = 154 * 8 + 2, 154 < 256
example : newPointCode 1234 (goVariant .v383) = some ⟨1234, [0x30, 0x2d, 0x31, 0x35, 0x34, 0x2d, 0x32], variant383⟩ := by
  decide +kernel

/-! ### C35 -/

theorem split_formats {cs : List Nat} {parts : List Bytes} (hl : parts.length = cs.length)
    (h : ∀ x ∈ cs.zip parts, IsGroup x.1 x.2) (hne : parts ≠ []) :
    split (dashed parts) = parts ∧ parts.map atoi = cs.map (fun c : Nat => some (c : Int)) := by
  have nod : ∀ c : Nat, ∀ p : Bytes, IsGroup c p → (0x2d : UInt8) ∉ p := by
    rintro c p ⟨_, h | ⟨d, rfl, h⟩⟩
    · exact dash_not_digit h.2.1
    · rw [List.mem_cons, not_or]
      exact ⟨by decide, dash_not_digit h.2.1⟩
  have key : ∀ (cs : List Nat) (parts : List Bytes), parts.length = cs.length →
      (∀ x ∈ cs.zip parts, IsGroup x.1 x.2) →
      (∀ p ∈ parts, (0x2d : UInt8) ∉ p) ∧ parts.map atoi = cs.map (fun c : Nat => some (c : Int)) := by
    intro cs
    induction cs with
    | nil => intro parts hl _; cases parts <;> simp at hl; simp
    | cons c cs ih =>
      intro parts hl h
      cases parts with
      | nil => simp at hl
      | cons p ps =>
        rw [List.zip_cons_cons] at h
        obtain ⟨h1, h2⟩ := ih ps (by simpa using hl) (fun x hx => h x (by simp [hx]))
        have hg : IsGroup c p := h (c, p) (by simp)
        have hd := nod c p hg
        refine ⟨?_, ?_⟩
        · intro q hq
          rcases List.mem_cons.mp hq with rfl | hq
          · exact hd
          · exact h1 q hq
        · rw [List.map_cons, List.map_cons, h2, (atoi_group p hd c).mpr ⟨c, rfl, hg⟩]
  obtain ⟨h1, h2⟩ := key cs parts hl h
  exact ⟨split_dashed parts hne h1, h2⟩

/-- C35: exact acceptance and value for the working variants. Groups are not range checked; what is
returned is the bitwise or of the shifted groups (modulo 2^32), and the string is kept verbatim. -/
theorem c35_accept (s : Bytes) (v : PcVariant) (h : v ≠ .v446) (p : Pc.PointCode) :
    newPointCodeFrom s (goVariant v) = some p ↔
      ∃ cs, cs.length = v.widths.length ∧ Parsable cs s ∧
        p.uint32.toNat = orValue v.widths cs ∧ p.formatted = s ∧ p.form = goVariant v := by
  rw [newPointCodeFrom, if_neg (variant_ne_none v), convStrToRaw, if_neg (variant_ne_none v)]
  have hlen : ¬ (split s).length = 0 := fun h0 => split_ne_nil s (List.length_eq_zero_iff.mp h0)
  simp only [if_neg hlen, variant_slice, List.length_map, variant_bitLength v h]
  constructor
  · intro hp
    by_cases hl : (split s).length ≠ v.widths.length
    · rw [if_pos hl] at hp; cases hp
    · rw [if_neg hl] at hp
      have hl : (split s).length = v.widths.length := Decidable.not_not.mp hl
      have hall : ∀ d ∈ split s, ∃ n : Nat, atoi d = some (n : Int) ∧ IsGroup n d := by
        intro d hd
        cases ha : atoi d with
        | none => rw [strLoop_none _ _ _ _ (by simpa using hl) ⟨d, hd, ha⟩] at hp; cases hp
        | some x =>
          obtain ⟨n, rfl, hn⟩ := (atoi_group d ((split_spec s).2 d hd) x).mp ha
          exact ⟨n, rfl, hn⟩
      have hcs : ∀ l : List Bytes, (∀ d ∈ l, ∃ n : Nat, atoi d = some (n : Int) ∧ IsGroup n d) →
          ∃ cs : List Nat, cs.length = l.length ∧ l.map atoi = cs.map (fun c : Nat => some (c : Int)) ∧
            ∀ x ∈ cs.zip l, IsGroup x.1 x.2 := by
        intro l
        induction l with
        | nil => intro _; exact ⟨[], rfl, rfl, by simp⟩
        | cons d l ih =>
          intro h
          obtain ⟨n, h1, h2⟩ := h d (by simp)
          obtain ⟨cs, h3, h4, h5⟩ := ih (fun d hd => h d (by simp [hd]))
          refine ⟨n :: cs, by simp [h3], by simp [h1, h4], ?_⟩
          intro x hx
          rw [List.zip_cons_cons] at hx
          rcases List.mem_cons.mp hx with rfl | hx
          · exact h2
          · exact h5 x hx
      obtain ⟨cs, h1, h2, h3⟩ := hcs _ hall
      obtain ⟨m, h4, h5⟩ := strLoop_eq v.widths (split s) cs 0 (variant_bits v) h2 hl
      rw [show v.bits = v.widths.sum from rfl, h4] at hp
      cases hp
      refine ⟨cs, h1.trans hl, ⟨split s, h1.symm, h3, ((split_spec s).1).symm⟩, ?_, rfl, rfl⟩
      show m.toNat = _
      rw [h5]; simp
  · rintro ⟨cs, hl, ⟨parts, hpl, hg, rfl⟩, hv, hf, hform⟩
    have hne : parts ≠ [] := by
      intro h0; rw [h0] at hpl
      exact variant_widths_ne v (List.length_eq_zero_iff.mp (by rw [← hl, ← hpl]; rfl))
    obtain ⟨h1, h2⟩ := split_formats hpl hg hne
    obtain ⟨m, h4, h5⟩ := strLoop_eq v.widths parts cs 0 (variant_bits v) h2 (by rw [hpl, hl])
    rw [h1, if_neg (by rw [hpl, hl]; exact fun h => h rfl), show v.bits = v.widths.sum from rfl, h4]
    cases p with
    | mk raw formatted form =>
      simp only at hf hform
      subst hf; subst hform
      simp only [Option.some.injEq, Pc.PointCode.mk.injEq, and_true]
      apply BitVec.eq_of_toNat_eq
      rw [h5]
      change raw.toNat = _ at hv
      rw [hv]; simp

/-- C35: if every group is in range, the value is the positional value. -/
theorem c35_in_range (s : Bytes) (v : PcVariant) (h : v ≠ .v446) (cs : List Nat)
    (hr : InRange v.widths cs) (hs : Parsable cs s) :
    ∃ p, newPointCodeFrom s (goVariant v) = some p ∧ p.uint32.toNat = positional v.widths cs ∧
      p.uint32.toNat < 2 ^ v.bits ∧ p.string = s ∧ p.variant = goVariant v := by
  have hlt : positional v.widths cs < 2 ^ v.bits := positional_lt hr
  have hle : 2 ^ v.bits ≤ 2 ^ 32 := Nat.pow_le_pow_right (by decide) (variant_bits v)
  have hn : (BitVec.ofNat 32 (positional v.widths cs)).toNat = positional v.widths cs := by
    rw [BitVec.toNat_ofNat]; omega
  refine ⟨⟨BitVec.ofNat 32 (positional v.widths cs), s, goVariant v⟩, ?_, hn, ?_, ?_, rfl⟩
  · rw [c35_accept s v h]
    refine ⟨cs, (inRange_length hr).symm, hs, ?_, rfl, rfl⟩
    rw [orValue_eq hr (variant_bits v)]; exact hn
  · show (BitVec.ofNat 32 _).toNat < _
    rw [hn]; exact hlt
  · rw [PointCode.string, if_neg (variant_ne_none v)]

/-- C35: without the range condition the value can exceed the variant's bit length, and different
groups can give the same point code: "0-0-8" equals "0-1-0", and "8-0-0" is 2^14 in variant 3-8-3. -/
theorem c35_no_range_check :
    (∃ p, newPointCodeFrom [0x38, 0x2d, 0x30, 0x2d, 0x30] variant383 = some p ∧ p.uint32.toNat = 2 ^ 14) ∧
    (∃ p q, newPointCodeFrom [0x30, 0x2d, 0x30, 0x2d, 0x38] variant383 = some p ∧
      newPointCodeFrom [0x30, 0x2d, 0x31, 0x2d, 0x30] variant383 = some q ∧ p.uint32 = q.uint32) := by
  refine ⟨⟨_, rfl, by decide +kernel⟩, ⟨_, _, rfl, rfl, by decide +kernel⟩⟩

/-- C35: the empty variant is refused, and so is every variant string that is not dash-separated
integers. -/
theorem c35_bad_variant (s : Bytes) (v : Pc.Variant) (h : v = [] ∨ ∃ d ∈ split v, atoi d = none) :
    newPointCodeFrom s v = none := by
  by_cases hv : v = variantNone
  · rw [newPointCodeFrom, if_pos hv]
  · rw [newPointCodeFrom, if_neg hv, convStrToRaw, if_neg hv]
    have hlen : ¬ (split s).length = 0 := fun h0 => split_ne_nil s (List.length_eq_zero_iff.mp h0)
    have hs : slice v = [] := by
      rw [slice, if_neg hv]
      obtain h | ⟨d, hd, ha⟩ := h
      · exact absurd h hv
      · have : ∀ l : List Bytes, d ∈ l → sliceLoop l = none := by
          intro l
          induction l with
          | nil => intro h; cases h
          | cons x l ih =>
            intro hm
            rw [sliceLoop]
            rcases List.mem_cons.mp hm with rfl | hm
            · rw [ha]
            · cases atoi x with
              | none => rfl
              | some y => rw [ih hm]; rfl
        rw [this _ hd]; rfl
    simp only [if_neg hlen, hs, List.length_nil]
    rw [if_pos hlen]

example : Parsable [2, 11, 0] [0x2b, 0x32, 0x2d, 0x31, 0x31, 0x2d, 0x30] ∧ InRange (PcVariant.widths .v383) [2, 11, 0] := by
  refine ⟨⟨[[0x2b, 0x32], [0x31, 0x31], [0x30]], rfl, ?_, by decide⟩, by simp [InRange, PcVariant.widths]⟩
  intro x hx
  simp only [List.zip_cons_cons, List.zip_nil_left, List.mem_cons, List.not_mem_nil, or_false] at hx
  rcases hx with rfl | rfl | rfl
  · exact ⟨by decide, .inr ⟨[0x32], rfl, by simp, by decide, by decide⟩⟩
  · exact ⟨by decide, .inl ⟨by simp, by decide, by decide⟩⟩
  · exact ⟨by decide, .inl ⟨by simp, by decide, by decide⟩⟩

/-! ### C31 -/

theorem group_small (n k w : Nat) (hw : w ≤ 32) : n / 2 ^ k % 2 ^ w < 2 ^ 63 := by
  have h1 := Nat.mod_lt (n / 2 ^ k) (Nat.two_pow_pos w)
  have h2 : 2 ^ w ≤ 2 ^ 32 := Nat.pow_le_pow_right (by decide) hw
  have h3 : 2 ^ 32 < 2 ^ 63 := by decide
  omega

theorem formats_parsable {ws cs : List Nat} {s : Bytes} (hr : InRange ws cs) (hw : ws.sum ≤ 32)
    (h : Formats cs s) : Parsable cs s := by
  obtain ⟨parts, hl, hf, rfl⟩ := h
  refine ⟨parts, hl, ?_, rfl⟩
  have hsmall : ∀ {ws cs : List Nat}, InRange ws cs → ws.sum ≤ 32 → ∀ c ∈ cs, c < 2 ^ 63 := by
    intro ws
    induction ws with
    | nil => intro cs h _; cases cs with
      | nil => simp
      | cons => exact h.elim
    | cons w ws ih =>
      intro cs h hw c hc
      rw [List.sum_cons] at hw
      cases cs with
      | nil => cases hc
      | cons d cs =>
        rcases List.mem_cons.mp hc with rfl | hc
        · have h2 : 2 ^ w ≤ 2 ^ 32 := Nat.pow_le_pow_right (by decide) (by omega)
          have h3 : 2 ^ 32 < 2 ^ 63 := by decide
          have := h.1
          omega
        · exact ih h.2 (by omega) c hc
  intro x hx
  exact ⟨hsmall hr hw x.1 (List.of_mem_zip hx).1, .inl (hf x hx).1⟩

/-- C31: raw value to string and back. -/
theorem c31_roundtrip (raw : BitVec 32) (v : PcVariant) (h : v ≠ .v446) :
    ∃ p q, newPointCode raw (goVariant v) = some p ∧ p.uint32.toNat = raw.toNat % 2 ^ v.bits ∧
      newPointCodeFrom p.string (goVariant v) = some q ∧ q.uint32.toNat = raw.toNat % 2 ^ v.bits ∧
      q = p := by
  obtain ⟨p, cs, h1, h2, h3, h4, h5, h6⟩ := c32_format raw v h
  obtain ⟨q, q1, q2, _, q4, q5⟩ := c35_in_range p.string v h cs h2 (formats_parsable h2 (variant_bits v) h4)
  refine ⟨p, q, h1, h5, q1, by rw [q2, h3], ?_⟩
  rw [new_working raw v h] at h1
  cases h1
  obtain ⟨_, _, _, _, q6, q7⟩ := (c35_accept _ v h q).mp q1
  cases q with
  | mk r f o =>
    simp only at q6 q7
    subst q6; subst q7
    rw [Pc.PointCode.mk.injEq]
    refine ⟨BitVec.eq_of_toNat_eq ?_, ?_, rfl⟩
    · exact (q2.trans h3).trans h5.symm
    · rw [PointCode.string, if_neg (variant_ne_none v)]

/-- C31, other direction: string to raw value and back to the same string, for canonical strings. -/
theorem c31_roundtrip_string (cs : List Nat) (s : Bytes) (v : PcVariant) (h : v ≠ .v446)
    (hr : InRange v.widths cs) (hs : Formats cs s) :
    ∃ p q, newPointCodeFrom s (goVariant v) = some p ∧ newPointCode p.uint32 (goVariant v) = some q ∧
      q.string = s ∧ q.uint32 = p.uint32 := by
  obtain ⟨p, q1, q2, q3, q4, q5⟩ := c35_in_range s v h cs hr (formats_parsable hr (variant_bits v) hs)
  obtain ⟨q, ds, h1, h2, h3, h4, h5, h6⟩ := c32_format p.uint32 v h
  refine ⟨p, q, q1, h1, ?_, BitVec.eq_of_toNat_eq (by rw [h5]; exact Nat.mod_eq_of_lt q3)⟩
  have e : ds = cs := positional_inj h2 hr (by rw [h3, Nat.mod_eq_of_lt q3, q2])
  subst e
  -- canonical decimals are unique
  rw [new_working _ v h] at h1
  cases h1
  obtain ⟨parts, hl, hf, rfl⟩ := hs
  obtain ⟨parts', hl', hf', he'⟩ := h4
  rw [he']
  rw [formats_unique ds parts' parts hl' hl hf' hf]

example : InRange (PcVariant.widths .v383) [2, 11, 0] := by simp [InRange, PcVariant.widths]

/-! ### C36 -/

/-- C36: equal strings, equal (masked) point codes. -/
theorem c36_injective (a b : BitVec 32) (v : PcVariant) (h : v ≠ .v446)
    (ha : a.toNat < 2 ^ v.bits) (hb : b.toNat < 2 ^ v.bits) (p q : Pc.PointCode)
    (hp : newPointCode a (goVariant v) = some p) (hq : newPointCode b (goVariant v) = some q)
    (hs : p.string = q.string) : a = b := by
  obtain ⟨p', r, h1, _, h3, h4, _⟩ := c31_roundtrip a v h
  obtain ⟨q', t, k1, _, k3, k4, _⟩ := c31_roundtrip b v h
  rw [hp] at h1; cases h1
  rw [hq] at k1; cases k1
  rw [hs, k3] at h3
  cases h3
  apply BitVec.eq_of_toNat_eq
  rw [h4, Nat.mod_eq_of_lt ha, Nat.mod_eq_of_lt hb] at k4
  exact k4

example : ((1234 : BitVec 32).toNat < 2 ^ PcVariant.bits .v383) := by decide

/-! ### C33 -/

theorem raw446 : ∀ (n : BitVec 32), n = 0 → rawLoop n (BitVec.ofNat 32 0) ([4, 4, 6].map (BitVec.ofNat 32))
    = [[0x30], [0x30], [0x30]] := by
  rintro n rfl; decide +kernel

/-- C33: variant 4-4-6 maps every raw value to 0 and "0-0-0". -/
theorem c33_new (raw : BitVec 32) :
    newPointCode raw variant446 = some ⟨0, [0x30, 0x2d, 0x30, 0x2d, 0x30], variant446⟩ := by
  have hb : bitLength variant446 = 0 := by decide
  have hs : slice variant446 = [4, 4, 6].map (BitVec.ofNat 32) := by decide
  have hm : ∀ x : BitVec 32, x &&& (((1 : BitVec 32) <<< 0) - 1) = 0 := by
    intro x; apply BitVec.eq_of_toNat_eq; rw [and_mask x 0 (by decide)]; simp [Nat.mod_one]
  have hc : ∀ n, convRawToStr n variant446 = some [0x30, 0x2d, 0x30, 0x2d, 0x30] := by
    intro n
    rw [convRawToStr, if_neg (by decide), hs, hb]
    show some (join (rawLoop (n &&& (((1 : BitVec 32) <<< 0) - 1)) _ _)) = _
    rw [hm, raw446 0 rfl]; rfl
  simp only [newPointCode, PointCode.convertTo, hb, hm, hc]

/-- C33: and every parsable string to 0. -/
theorem c33_from (s : Bytes) (p : Pc.PointCode) (h : newPointCodeFrom s variant446 = some p) :
    p.uint32 = 0 := by
  have hb : bitLength variant446 = 0 := by decide
  have hs : slice variant446 = [4, 4, 6].map (BitVec.ofNat 32) := by decide
  rw [newPointCodeFrom, if_neg (by decide), convStrToRaw, if_neg (by decide)] at h
  simp only [hs, hb] at h
  have z : ∀ (x : BitVec 32) (k : Nat), 32 ≤ k → x <<< k = 0 := by
    intro x k hk
    exact BitVec.shiftLeft_eq_zero hk
  have hlen : ¬ (split s).length = 0 := fun h0 => split_ne_nil s (List.length_eq_zero_iff.mp h0)
  rw [if_neg hlen] at h
  by_cases hl : (split s).length ≠ ([4, 4, 6].map (BitVec.ofNat 32)).length
  · rw [if_pos hl] at h; cases h
  · rw [if_neg hl] at h
    have hl : (split s).length = 3 := by simpa using hl
    match hsp : split s, hl with
    | [a, b, c], _ =>
      rw [hsp] at h
      simp only [List.map_cons, List.map_nil, strLoop] at h
      cases ha : atoi a <;> simp only [ha] at h
      · cases h
      cases hb : atoi b <;> simp only [hb] at h
      · cases h
      cases hc : atoi c <;> simp only [hc] at h
      · cases h
      rw [z _ _ (by decide +kernel), z _ _ (by decide +kernel), z _ _ (by decide +kernel)] at h
      cases h
      rfl

/-- C33: the round trip promised by C31 fails for 4-4-6 on every value that is not a multiple of
2^14. -/
theorem c33_violated (raw : BitVec 32) (h : raw.toNat % 2 ^ PcVariant.bits .v446 ≠ 0) :
    ¬ ∃ p q, newPointCode raw (goVariant .v446) = some p ∧
      newPointCodeFrom p.string (goVariant .v446) = some q ∧
      q.uint32.toNat = raw.toNat % 2 ^ PcVariant.bits .v446 := by
  rintro ⟨p, q, _, h2, h3⟩
  have := c33_from _ q h2
  rw [this] at h3
  exact h h3.symm

example : (5 : BitVec 32).toNat % 2 ^ PcVariant.bits .v446 ≠ 0 := by decide

/-! ### C34 -/

/-- C34: `ConvertTo` on any point code value: raw value and variant stay; for a working variant the
new string is the positional representation and is returned; for the empty variant it fails and
nothing changes. -/
theorem c34_convertTo (p : Pc.PointCode) :
    (∀ v, (p.convertTo v).1.uint32 = p.uint32 ∧ (p.convertTo v).1.variant = p.variant) ∧
    (∀ v, (p.convertTo v).2 = none ↔ v = variantNone) ∧
    (∀ v, (p.convertTo v).2 = none → (p.convertTo v).1 = p) ∧
    (∀ v s, (p.convertTo v).2 = some s → p.form ≠ variantNone → (p.convertTo v).1.string = s) ∧
    (∀ v, (p.convertTo v).1.convertTo v = p.convertTo v) := by
  have key : ∀ v, (v = variantNone ∧ p.convertTo v = (p, none)) ∨
      (v ≠ variantNone ∧ ∃ s, convRawToStr p.raw v = some s ∧ p.convertTo v = ({ p with formatted := s }, some s)) := by
    intro v
    by_cases hv : v = variantNone
    · exact .inl ⟨hv, by simp [PointCode.convertTo, convRawToStr, hv]⟩
    · refine .inr ⟨hv, _, if_neg hv, ?_⟩
      rw [PointCode.convertTo, convRawToStr, if_neg hv]
  refine ⟨?_, ?_, ?_, ?_, ?_⟩
  · intro v
    rcases key v with ⟨_, h⟩ | ⟨_, s, _, h⟩ <;> rw [h] <;> exact ⟨rfl, rfl⟩
  · intro v
    rcases key v with ⟨h, h'⟩ | ⟨h, s, _, h'⟩ <;> rw [h'] <;> simp [h]
  · intro v hn
    rcases key v with ⟨_, h⟩ | ⟨_, s, _, h⟩
    · rw [h]
    · rw [h] at hn; cases hn
  · intro v s hs hf
    rcases key v with ⟨_, h⟩ | ⟨_, s', _, h⟩
    · rw [h] at hs; cases hs
    · rw [h] at hs ⊢
      cases hs
      rw [PointCode.string, if_neg hf]
  · intro v
    rcases key v with ⟨_, h⟩ | ⟨_, s, hc, h⟩
    · rw [h, h]
    · rw [h]
      simp only [PointCode.convertTo, hc]

/-- C34: the converted string. -/
theorem c34_format (p : Pc.PointCode) (v : PcVariant) (h : v ≠ .v446) :
    ∃ s cs, (p.convertTo (goVariant v)).2 = some s ∧ InRange v.widths cs ∧
      positional v.widths cs = p.uint32.toNat % 2 ^ v.bits ∧ Formats cs s := by
  refine ⟨_, groups v.widths (p.raw.toNat % 2 ^ v.bits), ?_, groups_inRange _ _, ?_, groups_format _ _⟩
  · rw [PointCode.convertTo, conv_working p.raw v h]
  · rw [groups_value]; exact Nat.mod_mod _ _

example : (Pc.PointCode.convertTo ⟨1234, [], variant383⟩ variant77).1.string = [0x39, 0x2d, 0x38, 0x32] := by
  decide +kernel

end M3
