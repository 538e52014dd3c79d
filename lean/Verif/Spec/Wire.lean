/-
Specification: the wire format of RFC 4666, section 3, written down without reference to the model.
-/

namespace M3.Spec

/-- The two bytes of a 16-bit field in network byte order (RFC 4666, 3.1). -/
def be16 (n : Nat) : List UInt8 := [UInt8.ofNat (n / 256), UInt8.ofNat n]

/-- The four bytes of a 32-bit field in network byte order. -/
def be32 (n : Nat) : List UInt8 :=
  [UInt8.ofNat (n / 256 ^ 3), UInt8.ofNat (n / 256 ^ 2), UInt8.ofNat (n / 256), UInt8.ofNat n]

/-- Number of padding bytes after a value of `n` bytes: up to the next multiple of four (3.2). -/
def pad (n : Nat) : Nat := (4 - n % 4) % 4

/-- Largest value length a parameter can have: the length field counts the four header bytes. -/
def maxValue : Nat := 65531

/-- Variable-length parameter format (3.2): tag, length (header plus value, without padding),
value, zero padding. -/
def tlv (tag : Nat) (value : List UInt8) : List UInt8 :=
  be16 tag ++ be16 (4 + value.length) ++ value ++ List.replicate (pad value.length) 0

/-- Common message header (3.1) followed by the parameters; the length covers the whole message. -/
def message (version cls typ : Nat) (params : List (List UInt8)) : List UInt8 :=
  [UInt8.ofNat version, 0, UInt8.ofNat cls, UInt8.ofNat typ]
    ++ be32 (8 + params.flatten.length) ++ params.flatten

/-- The TLVs of the parameters that are present, in order. A parameter is a tag and a value. -/
def presentTlvs : List (Option (Nat × List UInt8)) → List (List UInt8)
  | [] => []
  | none :: ps => presentTlvs ps
  | some (t, v) :: ps => tlv t v :: presentTlvs ps

/-- The byte strings that denote a sequence of parameters: TLVs one after the other, padding bytes
of any value, and possibly (some of) the padding of the last one missing. -/
inductive ParamSeq : List UInt8 → List (Nat × List UInt8) → Prop
  | nil : ParamSeq [] []
  | cut (tag : Nat) (value filler : List UInt8) :
      tag < 65536 → value.length ≤ maxValue → filler.length < pad value.length →
      ParamSeq (be16 tag ++ be16 (4 + value.length) ++ value ++ filler) [(tag, value)]
  | cons (tag : Nat) (value filler rest : List UInt8) (ps : List (Nat × List UInt8)) :
      tag < 65536 → value.length ≤ maxValue → filler.length = pad value.length →
      ParamSeq rest ps →
      ParamSeq (be16 tag ++ be16 (4 + value.length) ++ value ++ filler ++ rest) ((tag, value) :: ps)

/-- The 16-bit big-endian number found at position `i` of `b`. -/
def field16 (b : List UInt8) (i : Nat) : Nat := (b.getD i 0).toNat * 256 + (b.getD (i + 1) 0).toNat

/-- The 32-bit big-endian number found at position `i` of `b`. -/
def field32 (b : List UInt8) (i : Nat) : Nat :=
  (b.getD i 0).toNat * 256 ^ 3 + (b.getD (i + 1) 0).toNat * 256 ^ 2
    + (b.getD (i + 2) 0).toNat * 256 + (b.getD (i + 3) 0).toNat

/-- Protocol Data value (3.3.1): OPC, DPC, SI, NI, MP, SLS, user protocol data. -/
def protocolData (opc dpc si ni mp sls : Nat) (userData : List UInt8) : List UInt8 :=
  be32 opc ++ be32 dpc ++
    [UInt8.ofNat si, UInt8.ofNat ni, UInt8.ofNat mp, UInt8.ofNat sls] ++ userData

end M3.Spec
