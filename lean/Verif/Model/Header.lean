import Verif.Model.Params

/-
Model of `messages/header.go`, and of the statements repeated in every message file.
-/

namespace M3

/-- `Header`, `messages/header.go:14-21`. -/
structure Header where
  version : UInt8
  reserved : UInt8
  cls : UInt8
  typ : UInt8
  length : UInt32
  payload : Bytes
  deriving DecidableEq, Repr

namespace Header

/-- `&Header{}`. -/
def zero : Header := ⟨0, 0, 0, 0, 0, []⟩

/-- `(*Header).MarshalLen`, `header.go:90-92`. -/
def marshalLen (h : Header) : Nat := 8 + h.payload.length

/-- `(*Header).SetLength`, `header.go:95-97`. -/
def setLength (h : Header) : Header := { h with length := UInt32.ofNat (8 + h.payload.length) }

/-- `NewHeader`, `header.go:24-35`. -/
def new (version cls mtype : UInt8) (payload : Bytes) : Header :=
  setLength ⟨version, 0, cls, mtype, 0, payload⟩

/-- `(*Header).MarshalTo`, `header.go:48-61`. The result is the caller's backing array. -/
def marshalTo (h : Header) (b : Slice) : Res Bytes := do
  if b.len < h.marshalLen then .err .msgTooShortToMarshal else
  let m ← b.set 0 h.version
  let b := { b with mem := m }
  let m ← b.set 1 h.reserved
  let b := { b with mem := m }
  let m ← b.set 2 h.cls
  let b := { b with mem := m }
  let m ← b.set 3 h.typ
  let b := { b with mem := m }
  let m ← putUint32 (← b.sub 4 8) h.length
  let b := { b with mem := m }
  let s ← b.sub 8 h.marshalLen
  return s.copy h.payload

/-- `(*Header).MarshalBinary`, `header.go:38-45`. -/
def marshalBinary (h : Header) : Res Bytes := do
  let b := Slice.make h.marshalLen
  let m ← h.marshalTo b
  return { b with mem := m }.bytes

/-- `ParseHeader` / `(*Header).UnmarshalBinary`, `header.go:64-87`. All fields are overwritten, so
the old value does not matter. The payload is copied (Go shares the bytes with the input). -/
def parse (b : Bytes) : Res Header := do
  let l := b.length
  if l < 8 then .err .msgTooShortToParse else
  let version ← rindex b 0
  let reserved ← rindex b 1
  let cls ← rindex b 2
  let typ ← rindex b 3
  let length ← getUint32 (← rsub b 4 8)
  let payload ← rsub b 8 l
  return ⟨version, reserved, cls, typ, length, payload⟩

end Header

/-- The statement `if param := m.X; param != nil { l += param.MarshalLen() }` that every `MarshalLen`
repeats, e.g. `messages/data.go:151-153`. -/
def addLen (l : Nat) : Option Param → Nat
  | none => l
  | some p => l + p.marshalLen

/-- The statement
`if param := m.X; param != nil { if err := param.MarshalTo(m.Header.Payload[offset:]); ...; offset += param.MarshalLen() }`
that every `MarshalTo` repeats, e.g. `messages/data.go:62-67`. (After the last parameter Go does not
advance `offset`, which is not used any more.) -/
def putParam (payload : Slice) (offset : Nat) : Option Param → Res (Slice × Nat)
  | none => .ok (payload, offset)
  | some p => do
    let s ← payload.from' offset
    let mem ← p.marshalTo s
    return ({ payload with mem := mem }, offset + p.marshalLen)

end M3
