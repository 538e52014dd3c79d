import Verif.Model.ParamKinds
import Verif.Lemmas.Params

/-! Helper lemmas about the constructors and accessors of individual parameters. -/

namespace M3
namespace Param

theorem parse_encode (p : Param) (hp : p.Consistent) (rest : Bytes) :
    parse (p.encode ++ rest) = .ok p := by
  have hc : p.length.toNat = 4 + p.data.length := hp
  have := parse_head p.tag p.length (p.data ++ List.replicate (Spec.pad p.data.length) 0 ++ rest)
    (by omega) (by simp only [List.length_append]; omega)
  simp only [encode, head, List.append_assoc] at this ⊢
  rw [this, hc]
  simp

theorem newUint32Val_consistent (t : UInt16) (v : UInt32) : (newUint32Val t v).Consistent := rfl

theorem encode_consistent (p : Param) (hp : p.Consistent) :
    p.encode = Spec.tlv p.tag.toNat p.data := by
  have hc : p.length.toNat = 4 + p.data.length := hp
  rw [encode, head, u16bytes_spec, u16bytes_spec, hc]; rfl

theorem decodeUint32Val_words (p : Param) (v : UInt32) (h : p.data = u32bytes v) :
    p.decodeUint32Val = .ok v := by
  have := getUint32_u32bytes v []
  simp only [List.append_nil] at this
  simp [decodeUint32Val, h, this]

theorem flatMap_u32bytes_length (ux : List UInt32) : (ux.flatMap u32bytes).length = 4 * ux.length := by
  induction ux with
  | nil => rfl
  | cons u us ih => simp [ih]; omega

/-- Every byte string of length `4 n` is a sequence of 32-bit words. -/
theorem exists_words (n : Nat) : ∀ d : Bytes, d.length = 4 * n →
    ∃ ux : List UInt32, ux.length = n ∧ ux.flatMap u32bytes = d := by
  induction n with
  | zero => intro d h; exact ⟨[], rfl, by simpa using h⟩
  | succ n ih =>
    intro d h
    obtain ⟨b0, b1, b2, b3, d, rfl⟩ := four_split d (by omega)
    obtain ⟨ux, hl, hu⟩ := ih d (by simp at h; omega)
    exact ⟨_ :: ux, by simp [hl], by
      rw [List.flatMap_cons, u32bytes_get b0 b1 b2 b3, hu]; rfl⟩

theorem decodeMultiLoop_words (ux : List UInt32) : ∀ (pre : Bytes) (i : Nat), pre.length = 4 * i →
    decodeMultiLoop (pre ++ ux.flatMap u32bytes) i ux.length = .ok ux := by
  induction ux with
  | nil => intro pre i h; simp [decodeMultiLoop]
  | cons u us ih =>
    intro pre i h
    simp only [List.length_cons, decodeMultiLoop, List.flatMap_cons]
    have r : rsub (pre ++ (u32bytes u ++ us.flatMap u32bytes)) (i * 4) ((i + 1) * 4)
        = .ok (u32bytes u) := by
      rw [rsub, if_pos ⟨by omega, by simp; omega⟩]
      have e : i * 4 = pre.length := by omega
      rw [e, List.drop_left, List.take_left' (by simp; omega)]
    have g : getUint32 (u32bytes u) = .ok u := by
      simpa using getUint32_u32bytes u []
    have := ih (pre ++ u32bytes u) (i + 1) (by simp; omega)
    rw [List.append_assoc] at this
    simp only [r, Res.bind_ok, g, this, Res.pure_eq]

theorem decodeMulti_words (p : Param) (ux : List UInt32) (h : p.data = ux.flatMap u32bytes) :
    p.decodeMultiUint32Val = .ok ux := by
  have hl := flatMap_u32bytes_length ux
  simp only [decodeMultiUint32Val, h, hl]
  rw [if_neg (by omega)]
  have : 4 * ux.length / 4 = ux.length := by omega
  rw [this]
  simpa using decodeMultiLoop_words ux [] 0 rfl

theorem decodeMulti_bad (p : Param) (h : p.data.length % 4 ≠ 0) :
    p.decodeMultiUint32Val = .ok [] := by
  simp [decodeMultiUint32Val, h]

/-- The word list of any parameter value. -/
theorem decodeMulti_cases (p : Param) :
    (p.data.length % 4 ≠ 0 ∧ p.decodeMultiUint32Val = .ok []) ∨
    (∃ ux : List UInt32, p.data = ux.flatMap u32bytes ∧ p.data.length = 4 * ux.length ∧
      p.decodeMultiUint32Val = .ok ux) := by
  by_cases h : p.data.length % 4 = 0
  · obtain ⟨ux, hl, hu⟩ := exists_words (p.data.length / 4) p.data (by omega)
    exact .inr ⟨ux, hu.symm, by omega, decodeMulti_words p ux hu.symm⟩
  · exact .inl ⟨h, decodeMulti_bad p h⟩

/-- Present members of an optional list. -/
def present (l : List (Option Param)) : List Param := l.filterMap id

theorem nestedData_eq (l : List (Option Param)) :
    nestedData l = .ok ((present l).flatMap encode) := by
  induction l with
  | nil => rfl
  | cons x l ih =>
    cases x with
    | none => simpa [nestedData, present] using ih
    | some p =>
      simp only [nestedData, marshalBinary_encode, ih, Res.bind_ok, Res.pure_eq]
      rfl

theorem newNested_eq (t : UInt16) (l : List (Option Param)) :
    newNested t l = .ok (setLength ⟨t, 0, (present l).flatMap encode⟩) := by
  simp [newNested, nestedData_eq]

end Param

namespace ProtocolDataPayload

theorem writeAt_zero_len (m a : Bytes) : writeAt m 0 a = a ++ m.drop a.length := by
  simp [writeAt]

/-- The bytes of a Protocol Data payload. -/
def encode (p : ProtocolDataPayload) : Bytes :=
  u32bytes p.originatingPointCode ++ u32bytes p.destinationPointCode ++
    [p.serviceIndicator, p.networkIndicator, p.messagePriority, p.signalingLinkSelection] ++ p.data

theorem encode_length (p : ProtocolDataPayload) : p.encode.length = 12 + p.data.length := by
  simp [encode]; omega

theorem marshalTo_ok (p : ProtocolDataPayload) (b : Slice) (hwf : b.WF) (h : p.marshalLen ≤ b.len) :
    p.marshalTo b = .ok (writeAt b.mem b.off p.encode) := by
  have hw : b.off + b.len ≤ b.mem.length := hwf
  have hml : p.marshalLen = 12 + p.data.length := rfl
  have step : ∀ (a c : Bytes), a.length + c.length ≤ 12 + p.data.length →
      writeAt (writeAt b.mem b.off a) (b.off + a.length) c = writeAt b.mem b.off (a ++ c) := by
    intro a c hac
    exact writeAt_writeAt _ _ _ _ (by omega)
  have len : ∀ (a : Bytes), a.length ≤ 12 + p.data.length →
      (writeAt b.mem b.off a).length = b.mem.length := by
    intro a ha
    exact writeAt_length _ _ _ (by omega)
  have sub_ok : ∀ (a : Bytes) (i j : Nat), a.length ≤ 12 + p.data.length → i ≤ j →
      j ≤ 12 + p.data.length →
      Slice.sub ⟨writeAt b.mem b.off a, b.off, b.len⟩ i j
        = .ok ⟨writeAt b.mem b.off a, b.off + i, j - i⟩ := by
    intro a i j ha hij hj
    rw [Slice.sub, if_pos ⟨hij, by simp only [Slice.cap, len a ha]; omega⟩]
  have set_ok : ∀ (a : Bytes) (v : UInt8), a.length < 12 →
      Slice.set ⟨writeAt b.mem b.off a, b.off, b.len⟩ a.length v
        = .ok (writeAt b.mem b.off (a ++ [v])) := by
    intro a v ha
    rw [Slice.set, if_pos (by show a.length < b.len; omega)]
    exact congrArg Res.ok (step a [v] (by simp; omega))
  have s0 : b.sub 0 4 = .ok ⟨b.mem, b.off + 0, 4 - 0⟩ := by
    rw [Slice.sub, if_pos ⟨by omega, by simp only [Slice.cap]; omega⟩]
  have s1 := sub_ok (u32bytes p.originatingPointCode) 4 8 (by simp; omega) (by omega) (by omega)
  have e1 := step (u32bytes p.originatingPointCode) (u32bytes p.destinationPointCode) (by simp; omega)
  simp only [u32bytes_length] at e1
  have t8 := set_ok (u32bytes p.originatingPointCode ++ u32bytes p.destinationPointCode)
    p.serviceIndicator (by simp)
  have t9 := set_ok (u32bytes p.originatingPointCode ++ u32bytes p.destinationPointCode ++
    [p.serviceIndicator]) p.networkIndicator (by simp)
  have t10 := set_ok (u32bytes p.originatingPointCode ++ u32bytes p.destinationPointCode ++
    [p.serviceIndicator] ++ [p.networkIndicator]) p.messagePriority (by simp)
  have t11 := set_ok (u32bytes p.originatingPointCode ++ u32bytes p.destinationPointCode ++
    [p.serviceIndicator] ++ [p.networkIndicator] ++ [p.messagePriority])
    p.signalingLinkSelection (by simp)
  have s12 := sub_ok (u32bytes p.originatingPointCode ++ u32bytes p.destinationPointCode ++
    [p.serviceIndicator] ++ [p.networkIndicator] ++ [p.messagePriority] ++
    [p.signalingLinkSelection]) 12 p.marshalLen (by simp) (by omega) (by omega)
  have e12 := step (u32bytes p.originatingPointCode ++ u32bytes p.destinationPointCode ++
    [p.serviceIndicator] ++ [p.networkIndicator] ++ [p.messagePriority] ++
    [p.signalingLinkSelection]) p.data (by simp)
  simp only [List.length_append, u32bytes_length, List.length_cons, List.length_nil,
    Nat.reduceAdd] at t8 t9 t10 t11 e12
  have tk : p.data.take (p.marshalLen - 12) = p.data := List.take_of_length_le (by omega)
  simp only [marshalTo, if_neg (show ¬ b.len < p.marshalLen by omega), s0, Res.bind_ok, putUint32,
    Nat.reduceSub, Nat.le_refl, if_true, Nat.add_zero, s1, e1, t8, t9, t10, t11, s12, Slice.copy,
    tk, e12, Res.pure_eq]
  simp [encode]

theorem marshalBinary_eq (p : ProtocolDataPayload) : p.marshalBinary = .ok p.encode := by
  simp only [marshalBinary]
  rw [marshalTo_ok p (Slice.make p.marshalLen) (by simp [Slice.WF, Slice.make])
    (by simp [Slice.make])]
  simp only [Res.bind_ok, Res.pure_eq, Slice.make]
  rw [Param.writeAt_replicate_zero]
  have : p.marshalLen - p.encode.length = 0 := by rw [encode_length, marshalLen]; omega
  rw [this]
  simp [Slice.bytes, encode_length, marshalLen, List.take_of_length_le]

theorem parse_encode (p : ProtocolDataPayload) : parse p.encode = .ok p := by
  obtain ⟨opc, dpc, si, ni, mp, sls, d⟩ := p
  have g0 : getUint32 (u32bytes opc) = .ok opc := by simpa using getUint32_u32bytes opc []
  have g1 : getUint32 (u32bytes dpc) = .ok dpc := by simpa using getUint32_u32bytes dpc []
  have hlen := encode_length ⟨opc, dpc, si, ni, mp, sls, d⟩
  simp only [parse]
  rw [if_neg (by rw [hlen]; simp)]
  have r0 : rsub (encode ⟨opc, dpc, si, ni, mp, sls, d⟩) 0 4 = .ok (u32bytes opc) := by
    rw [rsub, if_pos ⟨by omega, by omega⟩]; rfl
  have r1 : rsub (encode ⟨opc, dpc, si, ni, mp, sls, d⟩) 4 8 = .ok (u32bytes dpc) := by
    rw [rsub, if_pos ⟨by omega, by omega⟩]; rfl
  have r2 : rfrom (encode ⟨opc, dpc, si, ni, mp, sls, d⟩) 12 = .ok d := by
    rw [rfrom, if_pos (by omega)]; rfl
  simp only [r0, r1, r2, Res.bind_ok, g0, g1]
  rfl

end ProtocolDataPayload

namespace Param

theorem newProtocolData_eq (opc dpc : UInt32) (si ni mp sls : UInt8) (data : Bytes) :
    newProtocolData opc dpc si ni mp sls data =
      .ok (setLength ⟨Tag.protocolData, 0, ProtocolDataPayload.encode ⟨opc, dpc, si, ni, mp, sls, data⟩⟩) := by
  simp [newProtocolData, ProtocolDataPayload.marshalBinary_eq]

end Param
end M3
