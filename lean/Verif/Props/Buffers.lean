import Verif.Lemmas.Codec
import Verif.Lemmas.ParamKinds

/-! Property C75: what the `MarshalTo` methods of parameters, headers and Protocol Data do to the caller's buffer. -/

set_option autoImplicit false

namespace M3

namespace Spec

/-- `new` is the array `old` with the bytes `bs` at position `off`, every other byte as before. -/
def Patched (old : Bytes) (off : Nat) (bs new : Bytes) : Prop :=
  new.length = old.length ∧ ∀ i, new[i]? = if off ≤ i ∧ i < off + bs.length then bs[i - off]? else old[i]?

end Spec

open Spec (Patched be16 be32 pad)

theorem patched_writeAt {old bs : Bytes} {off : Nat} (h : off + bs.length ≤ old.length) :
    Patched old off bs (writeAt old off bs) := by
  refine ⟨writeAt_length _ _ _ h, fun i => ?_⟩
  rw [writeAt]
  have hl : (old.take off).length = off := by rw [List.length_take]; omega
  by_cases h1 : i < off
  · rw [if_neg (by omega), List.getElem?_append_left (by rw [List.length_append]; omega),
      List.getElem?_append_left (by omega), List.getElem?_take_of_lt h1]
  · by_cases h2 : i < off + bs.length
    · rw [if_pos ⟨by omega, h2⟩, List.getElem?_append_left (by rw [List.length_append]; omega),
        List.getElem?_append_right (by omega), hl]
    · rw [if_neg (by omega), List.getElem?_append_right (by rw [List.length_append]; omega),
        List.length_append, hl, List.getElem?_drop]
      congr 1
      omega

/-- C75: `(*Param).MarshalTo` does not look at the length of the buffer, only at its capacity: if `MarshalLen` bytes do not fit it
panics, otherwise it writes tag, length and data. It never returns an error and never writes the padding. -/
theorem c75_param (p : Param) (b : Slice) :
    (b.cap < p.marshalLen ∧ p.marshalTo b = .panic) ∨
    (p.marshalLen ≤ b.cap ∧ ∃ mem, p.marshalTo b = .ok mem ∧
      Patched b.mem b.off (be16 p.tag.toNat ++ be16 p.length.toNat ++ p.data) mem) := by
  rw [Param.marshalTo_eq]
  by_cases h : p.marshalLen ≤ b.cap
  · rw [if_pos h]
    refine .inr ⟨h, _, rfl, ?_⟩
    rw [← u16bytes_spec, ← u16bytes_spec]
    refine patched_writeAt ?_
    have h' : p.marshalLen ≤ b.mem.length - b.off := h
    have := p.data_le_marshalLen
    simp only [List.length_append, u16bytes_length]
    omega
  · rw [if_neg h]
    exact .inl ⟨by omega, rfl⟩

/-- C75: so the `MarshalLen` bytes at the front of the buffer are those of `MarshalBinary` exactly if the 0 to 3 padding bytes were
zero before. -/
theorem c75_padding (p : Param) (b : Slice) (h : p.marshalLen ≤ b.cap) :
    ∃ mem bs, p.marshalTo b = .ok mem ∧ p.marshalBinary = .ok bs ∧
      ((mem.drop b.off).take p.marshalLen = bs ↔
        ∀ i, i < pad p.data.length → b.mem[b.off + 4 + p.data.length + i]? = some 0) := by
  have h' : p.marshalLen ≤ b.mem.length - b.off := h
  have h4 := p.four_le_marshalLen
  have hm := p.marshalLen_eq
  refine ⟨_, _, by rw [Param.marshalTo_eq, if_pos h], Param.marshalBinary_eq p, ?_⟩
  have e : ((writeAt b.mem b.off p.head).drop b.off).take p.marshalLen =
      p.head ++ (b.mem.drop (b.off + 4 + p.data.length)).take (pad p.data.length) := by
    have hb : (b.mem.take b.off).length = b.off := by rw [List.length_take]; omega
    rw [writeAt, List.append_assoc, List.drop_append_of_le_length (by omega), List.drop_of_length_le (by omega), List.nil_append,
      List.take_append, List.take_of_length_le (by rw [Param.head_length]; omega), Param.head_length]
    congr 2
    · omega
    · congr 1; omega
  rw [e]
  constructor
  · intro hh i hi
    have := List.append_cancel_left hh
    have := congrArg (·[i]?) this
    simp only [List.getElem?_take_of_lt hi, List.getElem?_drop, List.getElem?_replicate, if_pos hi] at this
    exact this
  · intro hh
    congr 1
    apply List.ext_getElem?
    intro i
    by_cases hi : i < pad p.data.length
    · rw [List.getElem?_take_of_lt hi, List.getElem?_drop, hh i hi, List.getElem?_replicate, if_pos hi]
    · rw [List.getElem?_eq_none (by simp; omega), List.getElem?_eq_none (by simp; omega)]

/-- A buffer that is too short but has room behind it: the bytes behind it are overwritten, here 5 of them. -/
example : let b : Slice := ⟨List.replicate 12 0xee, 1, 2⟩
    b.WF ∧ b.len < (Param.new 4 [0x61, 0x62, 0x63]).marshalLen ∧
    (Param.new 4 [0x61, 0x62, 0x63]).marshalTo b =
      .ok [0xee, 0, 4, 0, 7, 0x61, 0x62, 0x63, 0xee, 0xee, 0xee, 0xee] := ⟨by simp [Slice.WF], by decide, rfl⟩

/-- Padding that is not zero. -/
example : (Param.new 4 [0x61]).marshalTo ⟨List.replicate 8 0xee, 0, 8⟩ = .ok [0, 4, 0, 5, 0x61, 0xee, 0xee, 0xee] ∧
    (Param.new 4 [0x61]).marshalBinary = .ok [0, 4, 0, 5, 0x61, 0, 0, 0] := ⟨rfl, rfl⟩

/-- Without room there is a panic rather than an error. -/
example : (Param.new 4 [0x61]).marshalTo ⟨List.replicate 7 0xee, 0, 7⟩ = .panic := rfl

/-- C75: `(*Header).MarshalTo` refuses a buffer shorter than `MarshalLen`; otherwise it writes header and payload and nothing else. -/
theorem c75_header (h : Header) (b : Slice) (hb : b.WF) :
    (b.len < h.marshalLen ∧ h.marshalTo b = .err .msgTooShortToMarshal) ∨
    (h.marshalLen ≤ b.len ∧ ∃ mem, h.marshalTo b = .ok mem ∧
      Patched b.mem b.off ([h.version, h.reserved, h.cls, h.typ] ++ be32 h.length.toNat ++ h.payload) mem) := by
  rw [Header.marshalTo_eq h b hb]
  by_cases hl : b.len < h.marshalLen
  · exact .inl ⟨hl, by rw [if_pos hl]⟩
  · refine .inr ⟨by omega, _, if_neg hl, ?_⟩
    rw [← u32bytes_spec]
    refine patched_writeAt ?_
    have hw : b.off + b.len ≤ b.mem.length := hb
    have : h.marshalLen = 8 + h.payload.length := rfl
    simp
    omega

example : let b : Slice := ⟨List.replicate 12 0xee, 1, 10⟩
    b.WF ∧ (Header.new 1 3 1 [7, 8]).marshalLen ≤ b.len ∧ (Header.new 1 3 1 [7, 8]).marshalTo b =
      .ok [0xee, 1, 0, 3, 1, 0, 0, 0, 10, 7, 8, 0xee] := ⟨by simp [Slice.WF], by decide, rfl⟩

/-- C75: so does `(*ProtocolDataPayload).MarshalTo`. -/
theorem c75_payload (p : ProtocolDataPayload) (b : Slice) (hb : b.WF) :
    (b.len < p.marshalLen ∧ p.marshalTo b = .err .paramTooShortToMarshal) ∨
    (p.marshalLen ≤ b.len ∧ ∃ mem, p.marshalTo b = .ok mem ∧
      Patched b.mem b.off (be32 p.originatingPointCode.toNat ++ be32 p.destinationPointCode.toNat ++
        [p.serviceIndicator, p.networkIndicator, p.messagePriority, p.signalingLinkSelection] ++ p.data) mem) := by
  by_cases hl : b.len < p.marshalLen
  · exact .inl ⟨hl, by rw [ProtocolDataPayload.marshalTo, if_pos hl]⟩
  · refine .inr ⟨by omega, _, ProtocolDataPayload.marshalTo_ok p b hb (by omega), ?_⟩
    rw [← u32bytes_spec, ← u32bytes_spec]
    refine patched_writeAt ?_
    have hw : b.off + b.len ≤ b.mem.length := hb
    have : p.marshalLen = 12 + p.data.length := rfl
    simp
    omega

example : (⟨1, 2, 3, 4, 5, 6, [7]⟩ : ProtocolDataPayload).marshalTo ⟨List.replicate 14 0xee, 0, 13⟩ =
      .ok [0, 0, 0, 1, 0, 0, 0, 2, 3, 4, 5, 6, 7, 0xee] := rfl

end M3
