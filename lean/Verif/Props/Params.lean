import Verif.Lemmas.Params

/-! Properties C01-C06: single parameters and parameter sequences. -/

set_option autoImplicit false

namespace M3

open Spec (be16 be32 pad tlv field16 ParamSeq maxValue)

/-! ### C01: a parameter survives marshal/parse iff its data fits the length field -/

/-- C01, success direction: up to 65531 bytes of data every parameter survives the trip. -/
theorem c01_roundtrip (tag : Int) (data : Bytes) (h : data.length ≤ maxValue) :
    ∃ b p, (Param.new tag data).marshalBinary = .ok b ∧ Param.parse b = .ok p ∧
      (p.tag.toNat : Int) = tag % 65536 ∧ p.length.toNat = 4 + data.length ∧ p.data = data := by
  have h' : data.length ≤ 65531 := h
  have hc : (Param.new tag data).Consistent := Param.setLength_consistent _ h
  have hc' : (Param.new tag data).length.toNat = 4 + data.length := hc
  refine ⟨_, Param.new tag data, Param.marshalBinary_eq _, ?_, ?_, hc, rfl⟩
  · have hd : (Param.new tag data).data = data := rfl
    have := Param.parse_head (Param.new tag data).tag (Param.new tag data).length
      (data ++ List.replicate (pad data.length) 0) (by omega) (by simp; omega)
    simp only [Param.head, List.append_assoc, hd] at this ⊢
    rw [this, hc']
    simp only [Nat.add_sub_cancel_left, List.take_left]
    rfl
  · show (((UInt16.ofInt tag).toNat : Nat) : Int) = _
    rw [UInt16.ofInt]
    simp
    omega

example : ∃ b p, (Param.new 0x210 [1, 2, 3, 4, 5]).marshalBinary = .ok b ∧ Param.parse b = .ok p ∧
    (p.tag.toNat : Int) = 0x210 % 65536 ∧ p.length.toNat = 4 + 5 ∧ p.data = [1, 2, 3, 4, 5] :=
  c01_roundtrip 0x210 [1, 2, 3, 4, 5] (by decide)

/-- C01, failure direction: longer data never comes back; the outcome is `ErrInvalidLength` or a
parameter with other data. -/
theorem c01_too_long (tag : Int) (data : Bytes) (h : maxValue < data.length) :
    ∃ b, (Param.new tag data).marshalBinary = .ok b ∧
      (Param.parse b = .err .paramInvalidLength ∨
        ∃ p, Param.parse b = .ok p ∧ p.data ≠ data) := by
  have h' : 65531 < data.length := h
  refine ⟨_, Param.marshalBinary_eq _, ?_⟩
  have hlen : 4 ≤ ((Param.new tag data).head ++
      List.replicate (pad (Param.new tag data).data.length) 0).length := by simp; omega
  generalize (Param.new tag data).head ++
      List.replicate (pad (Param.new tag data).data.length) 0 = b at *
  obtain ⟨b0, b1, b2, b3, d, rfl⟩ := Param.four_split b hlen
  cases hb : Param.parse (b0 :: b1 :: b2 :: b3 :: d) with
  | ok p =>
    right
    refine ⟨p, rfl, ?_⟩
    obtain ⟨rest, _, hl⟩ := Param.parse_ok hb
    have := p.length.toNat_lt
    intro he
    rw [he] at hl
    omega
  | err e =>
    left
    rw [Param.parse_cons] at hb
    split at hb
    · cases hb
    · cases hb; rfl
  | panic => exact absurd hb (Param.parse_ne_panic _)
  | diverge => exact absurd hb (Param.parse_ne_diverge _)

example : maxValue < (List.replicate 65532 (7 : UInt8)).length := by
  rw [List.length_replicate]; decide

/-- C01 as one equivalence. -/
theorem c01_iff (tag : Int) (data : Bytes) :
    (∃ b p, (Param.new tag data).marshalBinary = .ok b ∧ Param.parse b = .ok p ∧
      (p.tag.toNat : Int) = tag % 65536 ∧ p.length.toNat = 4 + data.length ∧ p.data = data)
    ↔ data.length ≤ maxValue := by
  constructor
  · rintro ⟨b, p, -, -, -, hl, -⟩
    have := p.length.toNat_lt
    show data.length ≤ 65531
    omega
  · exact c01_roundtrip tag data

/-! ### C02: wire layout of one parameter -/

/-- C02: the bytes of any parameter value, whatever its length field says. -/
theorem c02_layout (p : Param) :
    p.marshalBinary = .ok (be16 p.tag.toNat ++ be16 p.length.toNat ++ p.data
      ++ List.replicate (pad p.data.length) 0) := by
  rw [Param.marshalBinary_eq, Param.head, u16bytes_spec, u16bytes_spec]

/-- C02: the number of bytes is `MarshalLen` and a multiple of four. -/
theorem c02_length (p : Param) (b : Bytes) (h : p.marshalBinary = .ok b) :
    b.length = p.marshalLen ∧ b.length % 4 = 0 := by
  rw [Param.marshalBinary_encode] at h
  cases h
  rw [Param.encode_length]
  exact ⟨rfl, p.marshalLen_mod⟩

example : ∃ b, (Param.new 4 [0x61, 0x62, 0x63]).marshalBinary = .ok b ∧ b.length = 8 :=
  ⟨_, c02_layout _, by decide⟩

/-- C02: a constructed parameter is exactly the RFC TLV as long as its data fits. -/
theorem c02_tlv (tag : Int) (data : Bytes) (h : data.length ≤ maxValue) :
    (Param.new tag data).marshalBinary = .ok (tlv (tag % 65536).toNat data) := by
  obtain ⟨b, p, hb, hp, ht, hl, hd⟩ := c01_roundtrip tag data h
  have hc : (Param.new tag data).length.toNat = 4 + data.length :=
    Param.setLength_consistent _ h
  rw [c02_layout, hc]
  have : (Param.new tag data).tag.toNat = (tag % 65536).toNat := by
    show (UInt16.ofInt tag).toNat = _
    rw [UInt16.ofInt]; simp; omega
  rw [this]
  rfl

example : (Param.new 4 [0x61, 0x62, 0x63]).marshalBinary =
    .ok [0, 4, 0, 7, 0x61, 0x62, 0x63, 0] := c02_tlv 4 _ (by decide)

/-! ### C03: exact behaviour of parsing one parameter -/

/-- C03: too short inputs. -/
theorem c03_short (b : Bytes) : Param.parse b = .err .paramTooShortToParse ↔ b.length < 4 := by
  constructor
  · intro h
    apply Decidable.byContradiction
    intro hb
    obtain ⟨b0, b1, b2, b3, d, rfl⟩ := Param.four_split b (by omega)
    rw [Param.parse_cons] at h
    split at h <;> cases h
  · exact Param.parse_short b

/-- C03: the accepted inputs and the result. -/
theorem c03_accept (b : Bytes) (p : Param) :
    Param.parse b = .ok p ↔
      4 ≤ b.length ∧ 4 ≤ field16 b 2 ∧ field16 b 2 ≤ b.length ∧
      p.tag.toNat = field16 b 0 ∧ p.length.toNat = field16 b 2 ∧
      p.data = (b.take (field16 b 2)).drop 4 := by
  by_cases hb : b.length < 4
  · rw [Param.parse_short b hb]
    constructor
    · intro h; cases h
    · intro h; omega
  · obtain ⟨b0, b1, b2, b3, d, rfl⟩ := Param.four_split b (by omega)
    have e0 : field16 (b0 :: b1 :: b2 :: b3 :: d) 0 = b0.toNat * 256 + b1.toNat := rfl
    have e2 : field16 (b0 :: b1 :: b2 :: b3 :: d) 2 = b2.toNat * 256 + b3.toNat := rfl
    rw [Param.parse_cons, get16_val, e0, e2]
    simp only [List.length_cons]
    have hdata : 4 ≤ b2.toNat * 256 + b3.toNat →
        ((b0 :: b1 :: b2 :: b3 :: d).take (b2.toNat * 256 + b3.toNat)).drop 4
          = d.take (b2.toNat * 256 + b3.toNat - 4) := by
      intro h
      obtain ⟨k, hk⟩ : ∃ k, b2.toNat * 256 + b3.toNat = k + 4 :=
        ⟨b2.toNat * 256 + b3.toNat - 4, by omega⟩
      rw [hk]; simp
    split
    · rename_i hc
      rw [hdata hc.1]
      constructor
      · intro h
        cases h
        exact ⟨by omega, hc.1, by omega, get16_val _ _, get16_val _ _, rfl⟩
      · rintro ⟨-, -, -, ht, hl, hd⟩
        congr 1
        cases p
        simp only at ht hl hd
        simp only [Param.mk.injEq]
        refine ⟨UInt16.toNat_inj.mp ?_, UInt16.toNat_inj.mp ?_, hd.symm⟩
        · rw [ht, get16_val]
        · rw [hl, get16_val]
    · rename_i hc
      constructor
      · intro h; cases h
      · rintro ⟨-, h1, h2, -⟩
        exact absurd ⟨h1, by omega⟩ hc

/-- C03: every other input is rejected with `ErrInvalidLength`. -/
theorem c03_invalid (b : Bytes) :
    Param.parse b = .err .paramInvalidLength ↔
      4 ≤ b.length ∧ (field16 b 2 < 4 ∨ b.length < field16 b 2) := by
  by_cases hb : b.length < 4
  · rw [Param.parse_short b hb]
    constructor
    · intro h; cases h
    · intro h; omega
  · obtain ⟨b0, b1, b2, b3, d, rfl⟩ := Param.four_split b (by omega)
    have e2 : field16 (b0 :: b1 :: b2 :: b3 :: d) 2 = b2.toNat * 256 + b3.toNat := rfl
    rw [Param.parse_cons, get16_val, e2]
    simp only [List.length_cons]
    split
    · rename_i hc
      constructor
      · intro h; cases h
      · intro h; omega
    · rename_i hc
      constructor
      · intro _; omega
      · intro _; rfl

/-- C03: no input panics (and parsing one parameter involves no loop). -/
theorem c03_no_panic (b : Bytes) : Param.parse b ≠ .panic ∧ Param.parse b ≠ .diverge :=
  ⟨Param.parse_ne_panic b, Param.parse_ne_diverge b⟩

example : Param.parse [0, 4, 0, 6, 0x61, 0x62, 0xff] = .ok ⟨4, 6, [0x61, 0x62]⟩ := by decide
example : Param.parse [0, 4, 0, 3, 0x61] = .err .paramInvalidLength := by decide
example : Param.parse [0, 4, 0] = .err .paramTooShortToParse := by decide

/-! ### C04: `ParseMultiParams` is total -/

/-- C04: every input yields a list or one of two errors; no panic, no endless loop. -/
theorem c04_total (b : Bytes) :
    (∃ ps, parseMultiParams b = .ok ps) ∨ parseMultiParams b = .err .paramTooShortToParse ∨
      parseMultiParams b = .err .paramInvalidLength :=
  parseMulti_total b

/-! ### C05: the accepted language -/

theorem paramSeq_of_parse {b : Bytes} {ps : List Param} (h : parseMultiParams b = .ok ps) :
    ParamSeq b (ps.map fun p => (p.tag.toNat, p.data)) := by
  induction hn : b.length using Nat.strongRecOn generalizing b ps with
  | ind n ih =>
    by_cases hb : b = []
    · subst hb; rw [parseMulti_nil] at h; cases h; exact .nil
    · have hpos : 0 < b.length := List.length_pos_iff.mpr hb
      rw [parseMulti_step b hb] at h
      cases hp : Param.parse b with
      | ok p =>
        obtain ⟨rest, hrest, hl⟩ := Param.parse_ok hp
        have hcons : p.Consistent := hl
        rw [hp] at h
        simp only [Res.bind_ok] at h
        have hhead : p.head = be16 p.tag.toNat ++ be16 (4 + p.data.length) ++ p.data := by
          rw [Param.head, u16bytes_spec, u16bytes_spec, hl]
        have hblen : b.length = 4 + p.data.length + rest.length := by rw [hrest]; simp
        split at h
        · rename_i hlt
          cases h
          have := ParamSeq.cut p.tag.toNat p.data rest p.tag.toNat_lt hcons.data_le
            (by rw [Param.padding_eq] at hlt; omega)
          rw [← hhead, ← hrest] at this
          exact this
        · rename_i hlt
          rw [Param.padding_eq] at h hlt
          have hdrop : b.drop (p.length.toNat + pad p.data.length)
              = rest.drop (pad p.data.length) := by
            have e : p.length.toNat + pad p.data.length = p.head.length + pad p.data.length := by
              rw [Param.head_length, hl]
            rw [hrest, e, List.drop_append]; simp
          have hsplit : b = p.head ++ rest.take (pad p.data.length)
              ++ rest.drop (pad p.data.length) := by
            rw [List.append_assoc, List.take_append_drop, ← hrest]
          cases hr : parseMultiParams (b.drop (p.length.toNat + pad p.data.length)) with
          | ok qs =>
            rw [hr] at h; simp only [Res.bind_ok] at h; cases h
            have hq := ih _ (by simp; omega) hr rfl
            rw [hdrop] at hq
            have := ParamSeq.cons p.tag.toNat p.data (rest.take (pad p.data.length)) _ _
              p.tag.toNat_lt hcons.data_le (by simp; omega) hq
            rw [← hhead, ← hsplit] at this
            exact this
          | err e => rw [hr] at h; cases h
          | panic => rw [hr] at h; cases h
          | diverge => rw [hr] at h; cases h
      | err e => rw [hp] at h; cases h
      | panic => rw [hp] at h; cases h
      | diverge => rw [hp] at h; cases h

/-- The parameter value that a tag and a value denote. -/
def Param.ofSpec (tv : Nat × Bytes) : Param :=
  ⟨UInt16.ofNat tv.1, UInt16.ofNat (4 + tv.2.length), tv.2⟩

theorem parse_of_paramSeq {b : Bytes} {qs : List (Nat × Bytes)} (h : ParamSeq b qs) :
    parseMultiParams b = .ok (qs.map Param.ofSpec) := by
  have key : ∀ (tag : Nat) (value : Bytes), tag < 65536 → value.length ≤ maxValue →
      (Param.ofSpec (tag, value)).Consistent ∧
      (Param.ofSpec (tag, value)).head = be16 tag ++ be16 (4 + value.length) ++ value := by
    intro tag value ht hv
    have hv' : value.length ≤ 65531 := hv
    refine ⟨(Param.consistent_iff _).mpr ⟨hv, rfl⟩, ?_⟩
    rw [Param.head, u16bytes_spec, u16bytes_spec]
    simp only [Param.ofSpec, UInt16.toNat_ofNat']
    rw [Nat.mod_eq_of_lt ht, Nat.mod_eq_of_lt (by omega)]
  induction h with
  | nil => exact parseMulti_nil
  | cut tag value filler ht hv hf =>
    obtain ⟨hc, hh⟩ := key tag value ht hv
    rw [← hh]
    exact parseMulti_cut _ hc filler hf
  | cons tag value filler rest ps ht hv hf _ ih =>
    obtain ⟨hc, hh⟩ := key tag value ht hv
    rw [← hh, parseMulti_cons _ hc filler rest hf, ih]
    rfl

/-- C05: `ParseMultiParams` returns `ps` exactly for the byte strings that denote `ps`. -/
theorem c05_language (b : Bytes) (ps : List Param) :
    parseMultiParams b = .ok ps ↔
      ParamSeq b (ps.map fun p => (p.tag.toNat, p.data)) ∧
        ∀ p ∈ ps, p.length.toNat = 4 + p.data.length := by
  constructor
  · intro h; exact ⟨paramSeq_of_parse h, parseMulti_consistent h⟩
  · rintro ⟨h, hc⟩
    rw [parse_of_paramSeq h]
    congr 1
    rw [List.map_map]
    conv => rhs; rw [← List.map_id ps]
    apply List.map_congr_left
    intro p hp
    have h1 := hc p hp
    cases p
    simp only at h1
    simp [Param.ofSpec, ← h1]

/-- C05: acceptance alone. -/
theorem c05_accept_iff (b : Bytes) :
    (∃ ps, parseMultiParams b = .ok ps) ↔ ∃ qs, ParamSeq b qs := by
  constructor
  · rintro ⟨ps, h⟩; exact ⟨_, paramSeq_of_parse h⟩
  · rintro ⟨qs, h⟩; exact ⟨_, parse_of_paramSeq h⟩

/-- C05: the reading of a byte string is unique. -/
theorem c05_unique (b : Bytes) (qs qs' : List (Nat × Bytes)) (h : ParamSeq b qs)
    (h' : ParamSeq b qs') : qs = qs' := by
  have h1 := parse_of_paramSeq h
  rw [parse_of_paramSeq h'] at h1
  have h2 : qs'.map Param.ofSpec = qs.map Param.ofSpec := Res.ok.inj h1
  have bound : ∀ {b qs}, ParamSeq b qs → ∀ q ∈ qs, q.1 < 65536 := by
    intro b qs h
    induction h with
    | nil => simp
    | cut tag value filler ht hv hf => intro q hq; simp at hq; subst hq; exact ht
    | cons tag value filler rest ps ht hv hf _ ih =>
      intro q hq
      rcases List.mem_cons.mp hq with rfl | hq
      · exact ht
      · exact ih q hq
  have hb := bound h
  have hb' := bound h'
  clear h h' h1 bound
  induction qs generalizing qs' with
  | nil => simpa using h2.symm
  | cons q qs ih =>
    cases qs' with
    | nil => simp at h2
    | cons q' qs' =>
      simp only [List.map_cons, List.cons.injEq] at h2
      have h3 := ih qs' h2.2 (fun x hx => hb x (by simp [hx])) (fun x hx => hb' x (by simp [hx]))
      have h4 := h2.1
      simp only [Param.ofSpec, Param.mk.injEq] at h4
      have ht : q'.1 = q.1 := by
        have h5 := congrArg UInt16.toNat h4.1
        simp only [UInt16.toNat_ofNat'] at h5
        have := hb q (by simp); have := hb' q' (by simp)
        omega
      rw [h3]
      congr 1
      exact Prod.ext ht.symm h4.2.2.symm

/-- A sequence whose last padding is cut is accepted. -/
example : parseMultiParams [0, 6, 0, 8, 0, 0, 0, 1, 0, 4, 0, 5, 0x61] =
    .ok [⟨6, 8, [0, 0, 0, 1]⟩, ⟨4, 5, [0x61]⟩] := by decide

example : ParamSeq [0, 6, 0, 8, 0, 0, 0, 1, 0, 4, 0, 5, 0x61] [(6, [0, 0, 0, 1]), (4, [0x61])] :=
  .cons 6 [0, 0, 0, 1] [] _ _ (by decide) (by decide) (by decide)
    (.cut 4 [0x61] [] (by decide) (by decide) (by decide))

/-- C04: the returned parameters are contiguous pieces of the input and do not overlap: their sizes
add up to at most the input. -/
theorem c04_contained (b : Bytes) (ps : List Param) (h : parseMultiParams b = .ok ps) :
    (∀ p ∈ ps, p.data <:+: b) ∧ (ps.map fun p => 4 + p.data.length).sum ≤ b.length := by
  have hseq := paramSeq_of_parse h
  suffices hs : ∀ {b qs}, ParamSeq b qs → (∀ q ∈ qs, q.2 <:+: b) ∧
      (qs.map fun q => 4 + q.2.length).sum ≤ b.length by
    have := hs hseq
    simpa [Function.comp_def] using this
  intro b qs h
  induction h with
  | nil => simp
  | cut tag value filler ht hv hf =>
    constructor
    · intro q hq; simp at hq; subst hq
      exact ⟨_, _, rfl⟩
    · simp; omega
  | cons tag value filler rest ps ht hv hf _ ih =>
    constructor
    · intro q hq
      rcases List.mem_cons.mp hq with rfl | hq
      · exact ⟨be16 tag ++ be16 (4 + value.length), filler ++ rest, by simp⟩
      · obtain ⟨x, y, hxy⟩ := ih.1 q hq
        exact ⟨be16 tag ++ be16 (4 + value.length) ++ value ++ filler ++ x, y, by
          simp only [List.append_assoc] at hxy ⊢; rw [hxy]⟩
    · have := ih.2
      simp at this ⊢; omega

example : ∃ ps, parseMultiParams [0, 4, 0, 4, 0, 5, 0, 5, 9, 9, 9, 9] = .ok ps ∧ ps.length = 2 :=
  ⟨[⟨4, 4, []⟩, ⟨5, 5, [9]⟩], by decide, rfl⟩

/-! ### C06: parameter lists round-trip -/

/-- C06. -/
theorem c06_roundtrip (ps : List Param) (h : ∀ p ∈ ps, p.length.toNat = 4 + p.data.length) :
    ∃ b, marshalMultiParams ps = .ok b ∧ parseMultiParams b = .ok ps :=
  ⟨_, marshalMulti_eq ps, parseMulti_encode ps h⟩

/-- C06: the bytes are the RFC TLVs in order. -/
theorem c06_layout (ps : List Param) (h : ∀ p ∈ ps, p.length.toNat = 4 + p.data.length) :
    marshalMultiParams ps = .ok ((ps.map fun p => tlv p.tag.toNat p.data).flatten) := by
  rw [marshalMulti_eq, ← List.flatMap_def]
  congr 1
  induction ps with
  | nil => rfl
  | cons p ps ih =>
    simp only [List.flatMap_cons]
    rw [ih (fun q hq => h q (by simp [hq]))]
    congr 1
    rw [Param.encode, Param.head, u16bytes_spec, u16bytes_spec, h p (by simp)]
    rfl

example : ∃ b, marshalMultiParams [Param.new 4 [1, 2, 3], Param.new 6 []] = .ok b ∧
    parseMultiParams b = .ok [Param.new 4 [1, 2, 3], Param.new 6 []] :=
  c06_roundtrip _ (by decide)

end M3
