import Verif.Model.Params
import Verif.Lemmas.Bytes

/-! Helper lemmas about single parameters and parameter sequences. -/

namespace M3

theorem writeAt_writeAt (m : Bytes) (o : Nat) (a b : Bytes)
    (h : o + a.length + b.length ≤ m.length) :
    writeAt (writeAt m o a) (o + a.length) b = writeAt m o (a ++ b) := by
  obtain ⟨pre, rest, rfl, hpre⟩ : ∃ pre rest, m = pre ++ rest ∧ pre.length = o :=
    ⟨m.take o, m.drop o, (List.take_append_drop o m).symm, by simp; omega⟩
  obtain ⟨x, rest, rfl, hx⟩ : ∃ x r, rest = x ++ r ∧ x.length = a.length :=
    ⟨rest.take a.length, rest.drop a.length, (List.take_append_drop _ _).symm, by
      simp at h ⊢; omega⟩
  obtain ⟨y, rest, rfl, hy⟩ : ∃ x r, rest = x ++ r ∧ x.length = b.length :=
    ⟨rest.take b.length, rest.drop b.length, (List.take_append_drop _ _).symm, by
      simp at h ⊢; omega⟩
  subst hpre
  have e1 : writeAt (pre ++ (x ++ (y ++ rest))) pre.length a = pre ++ a ++ (y ++ rest) := by
    simpa using writeAt_append_left pre x (y ++ rest) a hx.symm
  have e2 : writeAt (pre ++ (x ++ (y ++ rest))) pre.length (a ++ b) = pre ++ (a ++ b) ++ rest := by
    simpa using writeAt_append_left pre (x ++ y) rest (a ++ b) (by simp [hx, hy])
  rw [e1, e2]
  simpa using writeAt_append_left (pre ++ a) y rest b hy.symm

theorem Slice.make_bytes (n : Nat) : (Slice.make n).bytes = List.replicate n 0 := by
  simp [Slice.make, Slice.bytes]

theorem spec_pad (n : Nat) : Spec.pad n = if n % 4 = 0 then 0 else 4 - n % 4 := by
  unfold Spec.pad; split <;> omega

namespace Param

theorem padding_eq (p : Param) : p.padding = Spec.pad p.data.length := by
  rw [spec_pad]; rfl

theorem marshalLen_eq (p : Param) : p.marshalLen = 4 + p.data.length + Spec.pad p.data.length := by
  rw [marshalLen, padding_eq]

theorem four_le_marshalLen (p : Param) : 4 ≤ p.marshalLen := by unfold marshalLen; omega

theorem data_le_marshalLen (p : Param) : 4 + p.data.length ≤ p.marshalLen := by
  unfold marshalLen; omega

theorem marshalLen_mod (p : Param) : p.marshalLen % 4 = 0 := by
  rw [marshalLen_eq, spec_pad]; split <;> omega

/-- The bytes a parameter writes (without padding). -/
def head (p : Param) : Bytes := u16bytes p.tag ++ u16bytes p.length ++ p.data

@[simp] theorem head_length (p : Param) : p.head.length = 4 + p.data.length := by
  simp [head]; omega

/-- `MarshalTo` writes tag, length and data at the slice's position, or panics if the capacity is
too small. -/
theorem marshalTo_eq (p : Param) (b : Slice) :
    p.marshalTo b = if p.marshalLen ≤ b.cap then .ok (writeAt b.mem b.off p.head) else .panic := by
  have h4 := p.four_le_marshalLen
  have hd := p.data_le_marshalLen
  by_cases hc : p.marshalLen ≤ b.cap
  · have hcap : p.marshalLen ≤ b.mem.length - b.off := hc
    rw [if_pos hc]
    have l1 : (writeAt b.mem b.off (u16bytes p.tag)).length = b.mem.length :=
      writeAt_length _ _ _ (by simp; omega)
    have e1 : writeAt (writeAt b.mem b.off (u16bytes p.tag)) (b.off + 2) (u16bytes p.length)
        = writeAt b.mem b.off (u16bytes p.tag ++ u16bytes p.length) :=
      writeAt_writeAt b.mem b.off (u16bytes p.tag) (u16bytes p.length) (by simp; omega)
    have l2 : (writeAt b.mem b.off (u16bytes p.tag ++ u16bytes p.length)).length = b.mem.length :=
      writeAt_length _ _ _ (by simp; omega)
    have e2 : writeAt (writeAt b.mem b.off (u16bytes p.tag ++ u16bytes p.length)) (b.off + 4) p.data
        = writeAt b.mem b.off p.head :=
      writeAt_writeAt b.mem b.off (u16bytes p.tag ++ u16bytes p.length) p.data (by simp; omega)
    have s1 : b.sub 0 2 = .ok ⟨b.mem, b.off + 0, 2 - 0⟩ := by
      rw [Slice.sub, if_pos ⟨by omega, by omega⟩]
    have s2 : Slice.sub ⟨writeAt b.mem b.off (u16bytes p.tag), b.off, b.len⟩ 2 4
        = .ok ⟨writeAt b.mem b.off (u16bytes p.tag), b.off + 2, 4 - 2⟩ := by
      rw [Slice.sub, if_pos ⟨by omega, by simp only [Slice.cap, l1]; omega⟩]
    have s3 : Slice.sub ⟨writeAt b.mem b.off (u16bytes p.tag ++ u16bytes p.length), b.off, b.len⟩
          4 p.marshalLen
        = .ok ⟨writeAt b.mem b.off (u16bytes p.tag ++ u16bytes p.length), b.off + 4,
            p.marshalLen - 4⟩ := by
      rw [Slice.sub, if_pos ⟨by omega, by simp only [Slice.cap, l2]; omega⟩]
    have t : p.data.take (p.marshalLen - 4) = p.data := List.take_of_length_le (by omega)
    simp only [marshalTo, s1, Res.bind_ok, putUint16, Nat.le_refl, if_true, s2,
      Nat.add_zero, e1, s3, Slice.copy, t, e2, Res.pure_eq]
  · have hcap : ¬ p.marshalLen ≤ b.mem.length - b.off := hc
    rw [if_neg hc]
    simp only [marshalTo]
    by_cases h2 : 2 ≤ b.cap
    · have hcap2 : 2 ≤ b.mem.length - b.off := h2
      have s1 : b.sub 0 2 = .ok ⟨b.mem, b.off + 0, 2 - 0⟩ := by
        rw [Slice.sub, if_pos ⟨by omega, by omega⟩]
      have l1 : (writeAt b.mem b.off (u16bytes p.tag)).length = b.mem.length :=
        writeAt_length _ _ _ (by simp; omega)
      simp only [s1, Res.bind_ok, putUint16, Nat.le_refl, if_true, Nat.add_zero]
      by_cases h4' : 4 ≤ b.mem.length - b.off
      · have s2 : Slice.sub ⟨writeAt b.mem b.off (u16bytes p.tag), b.off, b.len⟩ 2 4
            = .ok ⟨writeAt b.mem b.off (u16bytes p.tag), b.off + 2, 4 - 2⟩ := by
          rw [Slice.sub, if_pos ⟨by omega, by simp only [Slice.cap, l1]; omega⟩]
        have l2 : (writeAt (writeAt b.mem b.off (u16bytes p.tag)) (b.off + 2)
            (u16bytes p.length)).length = b.mem.length := by
          rw [writeAt_length _ _ _ (by simp only [l1, u16bytes_length]; omega), l1]
        have s3 : Slice.sub ⟨writeAt (writeAt b.mem b.off (u16bytes p.tag)) (b.off + 2)
            (u16bytes p.length), b.off, b.len⟩ 4 p.marshalLen = .panic := by
          rw [Slice.sub, if_neg (by simp only [Slice.cap, l2]; omega)]
        simp only [s2, Res.bind_ok, Nat.le_refl, if_true, s3, Res.bind_panic]
      · have s2 : Slice.sub ⟨writeAt b.mem b.off (u16bytes p.tag), b.off, b.len⟩ 2 4 = .panic := by
          rw [Slice.sub, if_neg (by simp only [Slice.cap, l1]; omega)]
        simp only [s2, Res.bind_panic]
    · have s1 : b.sub 0 2 = .panic := by
        rw [Slice.sub, if_neg (by omega)]
      simp only [s1, Res.bind_panic]

theorem writeAt_replicate_zero (n : Nat) (bs : Bytes) :
    writeAt (List.replicate n 0) 0 bs = bs ++ List.replicate (n - bs.length) 0 := by
  simp [writeAt]

theorem marshalBinary_eq (p : Param) :
    p.marshalBinary = .ok (p.head ++ List.replicate (Spec.pad p.data.length) 0) := by
  have hd := p.data_le_marshalLen
  simp only [marshalBinary, marshalTo_eq]
  rw [if_pos (by simp [Slice.cap, Slice.make])]
  simp only [Res.bind_ok, Res.pure_eq, Slice.make]
  rw [writeAt_replicate_zero]
  congr 1
  have : p.marshalLen - p.head.length = Spec.pad p.data.length := by
    rw [marshalLen_eq, head_length]; omega
  rw [this, Slice.bytes]
  apply List.take_of_length_le
  simp [marshalLen_eq]

/-- Complete description of `Parse` on inputs of at least four bytes. -/
theorem parse_cons (b0 b1 b2 b3 : UInt8) (d : Bytes) :
    parse (b0 :: b1 :: b2 :: b3 :: d) =
      if 4 ≤ (b3.toUInt16 ||| (b2.toUInt16 <<< 8)).toNat ∧
          (b3.toUInt16 ||| (b2.toUInt16 <<< 8)).toNat ≤ d.length + 4 then
        .ok ⟨b1.toUInt16 ||| (b0.toUInt16 <<< 8), b3.toUInt16 ||| (b2.toUInt16 <<< 8),
          d.take ((b3.toUInt16 ||| (b2.toUInt16 <<< 8)).toNat - 4)⟩
      else .err .paramInvalidLength := by
  generalize hL : b3.toUInt16 ||| (b2.toUInt16 <<< 8) = L
  have hlt : (L < 4) ↔ L.toNat < 4 := by
    rw [UInt16.lt_iff_toNat_lt]; rfl
  simp only [parse, unmarshalBinary]
  rw [if_neg (by simp)]
  have r1 : rsub (b0 :: b1 :: b2 :: b3 :: d) 0 2 = .ok [b0, b1] := by simp [rsub]
  have r2 : rsub (b0 :: b1 :: b2 :: b3 :: d) 2 4 = .ok [b2, b3] := by simp [rsub]
  simp only [r1, r2, Res.bind_ok, getUint16, hL]
  by_cases h : 4 ≤ L.toNat ∧ L.toNat ≤ d.length + 4
  · rw [if_pos h, if_neg (by simp [hlt]; omega)]
    have r3 : rsub (b0 :: b1 :: b2 :: b3 :: d) 4 L.toNat = .ok (d.take (L.toNat - 4)) := by
      rw [rsub, if_pos ⟨h.1, by simp; omega⟩]; simp
    simp [r3]
  · rw [if_neg h, if_pos (by simp [hlt]; omega)]

theorem parse_short (b : Bytes) (h : b.length < 4) : parse b = .err .paramTooShortToParse := by
  simp [parse, unmarshalBinary, h]

theorem four_split (b : Bytes) (h : 4 ≤ b.length) :
    ∃ b0 b1 b2 b3 d, b = b0 :: b1 :: b2 :: b3 :: d := by
  match b, h with
  | b0 :: b1 :: b2 :: b3 :: d, _ => exact ⟨b0, b1, b2, b3, d, rfl⟩

/-- `Parse` on a well-formed header followed by enough bytes. -/
theorem parse_head (t l : UInt16) (d : Bytes) (h4 : 4 ≤ l.toNat) (hl : l.toNat ≤ d.length + 4) :
    parse (u16bytes t ++ u16bytes l ++ d) = .ok ⟨t, l, d.take (l.toNat - 4)⟩ := by
  have e1 : (t.toUInt8.toUInt16 ||| ((t >>> 8).toUInt8.toUInt16 <<< 8)) = t := by
    have := getUint16_u16bytes t []
    simpa [u16bytes, getUint16] using this
  have e2 : (l.toUInt8.toUInt16 ||| ((l >>> 8).toUInt8.toUInt16 <<< 8)) = l := by
    have := getUint16_u16bytes l []
    simpa [u16bytes, getUint16] using this
  simp only [u16bytes, List.cons_append, List.nil_append, parse_cons, e1, e2]
  rw [if_pos ⟨h4, hl⟩]

/-- Everything a successful `Parse` tells about the input. -/
theorem parse_ok {b : Bytes} {p : Param} (h : parse b = .ok p) :
    ∃ rest, b = p.head ++ rest ∧ p.length.toNat = 4 + p.data.length := by
  by_cases hb : b.length < 4
  · simp [parse_short b hb] at h
  · obtain ⟨b0, b1, b2, b3, d, rfl⟩ := four_split b (by omega)
    rw [parse_cons] at h
    generalize hL : b3.toUInt16 ||| (b2.toUInt16 <<< 8) = L at h
    split at h
    · rename_i hc
      simp only [Res.ok.injEq] at h
      subst h
      refine ⟨d.drop (L.toNat - 4), ?_, ?_⟩
      · simp only [head, ← hL, u16bytes_get, List.cons_append, List.nil_append]
        simp
      · simp; omega
    · simp at h

theorem parse_ne_panic (b : Bytes) : parse b ≠ .panic := by
  by_cases hb : b.length < 4
  · simp [parse_short b hb]
  · obtain ⟨b0, b1, b2, b3, d, rfl⟩ := four_split b (by omega)
    rw [parse_cons]; split <;> simp

theorem parse_ne_diverge (b : Bytes) : parse b ≠ .diverge := by
  by_cases hb : b.length < 4
  · simp [parse_short b hb]
  · obtain ⟨b0, b1, b2, b3, d, rfl⟩ := four_split b (by omega)
    rw [parse_cons]; split <;> simp

end Param

/-! ### Sequences -/

theorem parseMultiLoop_nil (fuel : Nat) : parseMultiLoop fuel [] = .ok [] := by
  unfold parseMultiLoop; simp

/-- One unrolling of the loop. -/
theorem parseMultiLoop_succ (fuel : Nat) (b : Bytes) (hb : b ≠ []) :
    parseMultiLoop (fuel + 1) b =
      (Param.parse b >>= fun p =>
        if b.length < p.length.toNat + p.padding then .ok [p] else
        parseMultiLoop fuel (b.drop (p.length.toNat + p.padding)) >>= fun ps => .ok (p :: ps)) := by
  have hne : ¬ b.length = 0 := by simpa using hb
  rw [parseMultiLoop, if_neg hne]
  congr 1
  funext p
  split
  · rfl
  · rename_i h
    rw [rfrom, if_pos (by omega)]
    simp

/-- The iteration bound does not matter as soon as it is at least the number of bytes. -/
theorem parseMultiLoop_fuel (b : Bytes) : ∀ f g : Nat, b.length ≤ f → b.length ≤ g →
    parseMultiLoop f b = parseMultiLoop g b := by
  induction hn : b.length using Nat.strongRecOn generalizing b with
  | ind n ih =>
    intro f g hf hg
    by_cases hb : b = []
    · subst hb; rw [parseMultiLoop_nil, parseMultiLoop_nil]
    · have hpos : 0 < b.length := List.length_pos_iff.mpr hb
      obtain ⟨f, rfl⟩ : ∃ k, f = k + 1 := ⟨f - 1, by omega⟩
      obtain ⟨g, rfl⟩ : ∃ k, g = k + 1 := ⟨g - 1, by omega⟩
      rw [parseMultiLoop_succ _ _ hb, parseMultiLoop_succ _ _ hb]
      cases hp : Param.parse b with
      | ok p =>
        obtain ⟨rest, _, hl⟩ := Param.parse_ok hp
        simp only [Res.bind_ok]
        split
        · rfl
        · rw [ih _ (by simp; omega) (b.drop (p.length.toNat + p.padding)) rfl f g
            (by simp; omega) (by simp; omega)]
      | err e => rfl
      | panic => rfl
      | diverge => rfl

theorem parseMulti_nil : parseMultiParams [] = .ok [] := parseMultiLoop_nil _

/-- `ParseMultiParams` as a recursive equation. -/
theorem parseMulti_step (b : Bytes) (hb : b ≠ []) :
    parseMultiParams b =
      (Param.parse b >>= fun p =>
        if b.length < p.length.toNat + p.padding then .ok [p] else
        parseMultiParams (b.drop (p.length.toNat + p.padding)) >>= fun ps => .ok (p :: ps)) := by
  have hpos : 0 < b.length := List.length_pos_iff.mpr hb
  obtain ⟨n, hn⟩ : ∃ k, b.length = k + 1 := ⟨b.length - 1, by omega⟩
  have e : parseMultiParams b = parseMultiLoop (n + 1) b := by rw [parseMultiParams, hn]
  rw [e, parseMultiLoop_succ _ _ hb]
  cases hp : Param.parse b with
  | ok p =>
    obtain ⟨rest, _, hl⟩ := Param.parse_ok hp
    simp only [Res.bind_ok]
    split
    · rfl
    · rw [parseMultiParams, parseMultiLoop_fuel (b.drop (p.length.toNat + p.padding)) n _
        (by simp; omega) (Nat.le_refl _)]
  | err e => rfl
  | panic => rfl
  | diverge => rfl

/-- Induction principle that follows the loop of `ParseMultiParams`. -/
theorem parseMulti_total (b : Bytes) :
    (∃ ps, parseMultiParams b = .ok ps) ∨ parseMultiParams b = .err .paramTooShortToParse ∨
      parseMultiParams b = .err .paramInvalidLength := by
  induction hn : b.length using Nat.strongRecOn generalizing b with
  | ind n ih =>
    by_cases hb : b = []
    · subst hb; exact .inl ⟨_, parseMulti_nil⟩
    · have hpos : 0 < b.length := List.length_pos_iff.mpr hb
      rw [parseMulti_step b hb]
      cases hp : Param.parse b with
      | ok p =>
        obtain ⟨rest, _, hl⟩ := Param.parse_ok hp
        simp only [Res.bind_ok]
        split
        · exact .inl ⟨_, rfl⟩
        · rcases ih _ (by simp; omega) (b.drop (p.length.toNat + p.padding)) rfl with
            ⟨ps, h⟩ | h | h
          · exact .inl ⟨_, by rw [h]; rfl⟩
          · exact .inr (.inl (by rw [h]; rfl))
          · exact .inr (.inr (by rw [h]; rfl))
      | err e =>
        by_cases hs : b.length < 4
        · rw [Param.parse_short b hs] at hp
          cases hp; exact .inr (.inl rfl)
        · obtain ⟨b0, b1, b2, b3, d, rfl⟩ := Param.four_split b (by omega)
          rw [Param.parse_cons] at hp
          split at hp
          · cases hp
          · cases hp; exact .inr (.inr rfl)
      | panic => exact absurd hp (Param.parse_ne_panic b)
      | diverge => exact absurd hp (Param.parse_ne_diverge b)

/-- A parameter is consistent if its length field matches its data. -/
def Param.Consistent (p : Param) : Prop := p.length.toNat = 4 + p.data.length

theorem Param.Consistent.data_le {p : Param} (h : p.Consistent) : p.data.length ≤ 65531 := by
  have h1 := p.length.toNat_lt
  have h2 : p.length.toNat = 4 + p.data.length := h
  omega

theorem Param.consistent_iff (p : Param) :
    p.Consistent ↔ p.data.length ≤ 65531 ∧ p.length = UInt16.ofNat (4 + p.data.length) := by
  constructor
  · intro h
    refine ⟨h.data_le, ?_⟩
    apply UInt16.toNat_inj.mp
    have h2 : p.length.toNat = 4 + p.data.length := h
    have := h.data_le
    simp [h2]; omega
  · rintro ⟨h1, h2⟩
    simp only [Consistent]
    rw [h2]; simp; omega

theorem Param.setLength_consistent (p : Param) (h : p.data.length ≤ 65531) :
    p.setLength.Consistent := by
  rw [consistent_iff]; exact ⟨h, rfl⟩

theorem Param.Consistent.setLength_eq {p : Param} (h : p.Consistent) : p.setLength = p := by
  have := ((Param.consistent_iff p).mp h).2
  cases p; simp_all [Param.setLength]

/-- Parsing one consistent parameter with its full padding in front of `rest`. -/
theorem parseMulti_cons (p : Param) (hp : p.Consistent) (z rest : Bytes)
    (hz : z.length = Spec.pad p.data.length) :
    parseMultiParams (p.head ++ z ++ rest) =
      (parseMultiParams rest >>= fun ps => .ok (p :: ps)) := by
  have hc : p.length.toNat = 4 + p.data.length := hp
  have hne : p.head ++ z ++ rest ≠ [] := by simp [Param.head, u16bytes]
  have hparse : Param.parse (p.head ++ z ++ rest) = .ok p := by
    have := Param.parse_head p.tag p.length (p.data ++ z ++ rest) (by omega)
      (by simp only [List.length_append]; omega)
    simp only [Param.head, List.append_assoc] at this ⊢
    rw [this, hc]
    simp
  rw [parseMulti_step _ hne, hparse]
  simp only [Res.bind_ok]
  rw [if_neg (by simp [Param.padding_eq, hz, hc])]
  have : (p.head ++ z ++ rest).drop (p.length.toNat + p.padding) = rest := by
    apply List.drop_left'
    simp [Param.padding_eq, hz, hc]
  rw [this]

theorem parseMulti_cut (p : Param) (hp : p.Consistent) (z : Bytes)
    (hz : z.length < Spec.pad p.data.length) :
    parseMultiParams (p.head ++ z) = .ok [p] := by
  have hc : p.length.toNat = 4 + p.data.length := hp
  have hne : p.head ++ z ≠ [] := by simp [Param.head, u16bytes]
  have hparse : Param.parse (p.head ++ z) = .ok p := by
    have := Param.parse_head p.tag p.length (p.data ++ z) (by omega)
      (by simp only [List.length_append]; omega)
    simp only [Param.head, List.append_assoc] at this ⊢
    rw [this, hc]
    simp
  rw [parseMulti_step _ hne, hparse]
  simp only [Res.bind_ok]
  rw [if_pos (by simp [Param.padding_eq, hc]; omega)]

/-- Full encoding of a parameter, as produced by `MarshalBinary`. -/
def Param.encode (p : Param) : Bytes := p.head ++ List.replicate (Spec.pad p.data.length) 0

theorem Param.encode_length (p : Param) : p.encode.length = p.marshalLen := by
  simp [Param.encode, Param.marshalLen_eq]

theorem Param.marshalBinary_encode (p : Param) : p.marshalBinary = .ok p.encode :=
  p.marshalBinary_eq

theorem marshalMulti_eq (ps : List Param) :
    marshalMultiParams ps = .ok (ps.flatMap Param.encode) := by
  induction ps with
  | nil => rfl
  | cons p ps ih => simp [marshalMultiParams, Param.marshalBinary_encode, ih]

theorem parseMulti_encode (ps : List Param) (h : ∀ p ∈ ps, p.Consistent) :
    parseMultiParams (ps.flatMap Param.encode) = .ok ps := by
  induction ps with
  | nil => exact parseMulti_nil
  | cons p ps ih =>
    simp only [List.flatMap_cons, Param.encode]
    rw [parseMulti_cons p (h p (by simp)) _ _ (by simp)]
    rw [ih (fun q hq => h q (by simp [hq]))]
    rfl

/-- What a successful `ParseMultiParams` returns is consistent. -/
theorem parseMulti_consistent {b : Bytes} {ps : List Param} (h : parseMultiParams b = .ok ps) :
    ∀ p ∈ ps, p.Consistent := by
  induction hn : b.length using Nat.strongRecOn generalizing b ps with
  | ind n ih =>
    by_cases hb : b = []
    · subst hb; rw [parseMulti_nil] at h; cases h; simp
    · have hpos : 0 < b.length := List.length_pos_iff.mpr hb
      rw [parseMulti_step b hb] at h
      cases hp : Param.parse b with
      | ok p =>
        obtain ⟨rest, _, hl⟩ := Param.parse_ok hp
        rw [hp] at h
        simp only [Res.bind_ok] at h
        split at h
        · cases h
          intro q hq; simp at hq; subst hq; exact hl
        · cases hr : parseMultiParams (b.drop (p.length.toNat + p.padding)) with
          | ok qs =>
            rw [hr] at h; simp only [Res.bind_ok] at h; cases h
            intro q hq
            rcases List.mem_cons.mp hq with rfl | hq
            · exact hl
            · exact ih _ (by simp; omega) hr rfl q hq
          | err e => rw [hr] at h; cases h
          | panic => rw [hr] at h; cases h
          | diverge => rw [hr] at h; cases h
      | err e => rw [hp] at h; cases h
      | panic => rw [hp] at h; cases h
      | diverge => rw [hp] at h; cases h

end M3
