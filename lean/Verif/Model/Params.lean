import Verif.Basic

/-
Model of `messages/params/params.go`: the TLV parameter and sequences of parameters.
Deprecated wrappers (lines 303-361) and logging are not modelled; for `String` (253-262) see Strings.lean.
-/

namespace M3

/-- `Param`, `messages/params/params.go:71-75`. A nil `Data` is the empty list (Go's `len`, `copy`,
`append` and `range` treat both alike). A `*Param` is an `Option Param` where it may be nil;
pointer sharing between messages is not modelled. -/
structure Param where
  tag : UInt16
  length : UInt16
  data : Bytes
  deriving DecidableEq, Repr

/-! Tag constants, `messages/params/params.go:15-60` (the `iota` values written out). -/
namespace Tag
def infoString : UInt16 := 0x0004
def routingContext : UInt16 := 0x0006
def diagnosticInformation : UInt16 := 0x0007
def heartbeatData : UInt16 := 0x0009
def trafficModeType : UInt16 := 0x000b
def errorCode : UInt16 := 0x000c
def status : UInt16 := 0x000d
def aspIdentifier : UInt16 := 0x0011
def affectedPointCode : UInt16 := 0x0012
def correlationID : UInt16 := 0x0013
def networkAppearance : UInt16 := 0x0200
def userCause : UInt16 := 0x0204
def congestionIndications : UInt16 := 0x0205
def concernedDestination : UInt16 := 0x0206
def routingKey : UInt16 := 0x0207
def registrationResult : UInt16 := 0x0208
def deregistrationResult : UInt16 := 0x0209
def localRoutingKeyIdentifier : UInt16 := 0x020a
def destinationPointCode : UInt16 := 0x020b
def serviceIndicators : UInt16 := 0x020c
def originatingPointCodeList : UInt16 := 0x020e
def protocolData : UInt16 := 0x0210
def registrationStatus : UInt16 := 0x0212
def deregistrationStatus : UInt16 := 0x0213
end Tag

namespace Param

/-- `(*Param).Padding`, `params.go:234-240`. -/
def padding (p : Param) : Nat :=
  let x := p.data.length % 4
  if x = 0 then 0 else 4 - x

/-- `(*Param).MarshalLen`, `params.go:243-245`. -/
def marshalLen (p : Param) : Nat := 4 + p.data.length + p.padding

/-- `(*Param).SetLength`, `params.go:248-250`; `uint16(...)` wraps. -/
def setLength (p : Param) : Param := { p with length := UInt16.ofNat (4 + p.data.length) }

/-- `NewParam`, `params.go:181-188`; `uint16(tag)` wraps. -/
def new (tag : Int) (data : Bytes) : Param :=
  setLength { tag := UInt16.ofInt tag, length := 0, data := data }

/-- `(*Param).MarshalTo`, `params.go:200-205`. The result is the caller's backing array after the
call; the padding bytes are left as they were. -/
def marshalTo (p : Param) (b : Slice) : Res Bytes := do
  let s ← b.sub 0 2
  let m ← putUint16 s p.tag
  let b := { b with mem := m }
  let s ← b.sub 2 4
  let m ← putUint16 s p.length
  let b := { b with mem := m }
  let s ← b.sub 4 p.marshalLen
  return s.copy p.data

/-- `(*Param).MarshalBinary`, `params.go:191-197`. -/
def marshalBinary (p : Param) : Res Bytes := do
  let b := Slice.make p.marshalLen
  let m ← p.marshalTo b
  return { b with mem := m }.bytes

/-- `(*Param).UnmarshalBinary`, `params.go:217-231`; only the successful result is kept (what is
left behind on error: Held.lean). -/
def unmarshalBinary (b : Bytes) : Res Param := do
  let l := b.length
  if l < 4 then .err .paramTooShortToParse else
  let tag ← getUint16 (← rsub b 0 2)
  let length ← getUint16 (← rsub b 2 4)
  if length.toNat > l ∨ length < 4 then .err .paramInvalidLength else
  let data ← rsub b 4 length.toNat
  return { tag, length, data }

/-- `Parse`, `params.go:208-214`. -/
def parse (b : Bytes) : Res Param := unmarshalBinary b

end Param

/-- `MarshalMultiParams`, `params.go:265-275`. -/
def marshalMultiParams : List Param → Res Bytes
  | [] => .ok []
  | p :: ps => do
    let c ← p.marshalBinary
    let r ← marshalMultiParams ps
    return c ++ r

/-- The loop of `ParseMultiParams`, `params.go:284-299`, with an iteration bound; exceeding the
bound is reported as `diverge`. Accumulation by `append` is written as consing on the way back. -/
def parseMultiLoop : Nat → Bytes → Res (List Param)
  | fuel, b =>
    if b.length = 0 then .ok [] else
    match fuel with
    | 0 => .diverge
    | fuel + 1 => do
      let p ← Param.parse b
      if b.length < p.length.toNat + p.padding then return [p] else
      let b' ← rfrom b (p.length.toNat + p.padding)
      let ps ← parseMultiLoop fuel b'
      return p :: ps

/-- `ParseMultiParams`, `params.go:282-301`. The iteration bound is the number of bytes; theorem
`c04_total` shows it is never exceeded. -/
def parseMultiParams (b : Bytes) : Res (List Param) := parseMultiLoop b.length b

namespace Param

/-- `newUint32ValParam`, `params.go:77-85`. -/
def newUint32Val (t : UInt16) (u : UInt32) : Param := { tag := t, length := 8, data := u32bytes u }

/-- `uint32To24`, `params.go:97-99`. -/
def uint32To24 (n : UInt32) : Bytes := [(n >>> 16).toUInt8, (n >>> 8).toUInt8, n.toUInt8]

/-- `newUint24ValParam`, `params.go:87-95`. -/
def newUint24Val (t : UInt16) (u : UInt32) : Param :=
  { tag := t, length := 8, data := [0] ++ uint32To24 u }

/-- `newUint8ValParam`, `params.go:101-107`. -/
def newUint8Val (t : UInt16) (u : UInt8) : Param := { tag := t, length := 8, data := [0, 0, 0, u] }

/-- `newMultiUint32ValParam`, `params.go:109-120`; the writes at `i*4` for consecutive `i` are the
concatenation. -/
def newMultiUint32Val (t : UInt16) (ux : List UInt32) : Param :=
  setLength { tag := t, length := 0, data := ux.flatMap u32bytes }

/-- `newMultiUint8ValParam`, `params.go:122-132`. -/
def newMultiUint8Val (t : UInt16) (ux : Bytes) : Param :=
  let l := ux.length + (4 - ux.length % 4)
  setLength { tag := t, length := 0, data := (Slice.make l).copy ux }

/-- `newVariableLenValParam`, `params.go:134-141`. -/
def newVariableLenVal (t : UInt16) (b : Bytes) : Param :=
  setLength { tag := t, length := 0, data := b }

/-- The loop of `newNestedParam`, `params.go:148-153`: nil members are skipped and the error of
`MarshalBinary` is dropped (its value is then the nil slice). -/
def nestedData : List (Option Param) → Res Bytes
  | [] => .ok []
  | none :: ps => nestedData ps
  | some p :: ps =>
    match p.marshalBinary with
    | .ok x => do let r ← nestedData ps; return x ++ r
    | .err _ => nestedData ps
    | .panic => .panic
    | .diverge => .diverge

/-- `newNestedParam`, `params.go:143-156`. -/
def newNested (t : UInt16) (ps : List (Option Param)) : Res Param := do
  let d ← nestedData ps
  return setLength { tag := t, length := 0, data := d }

/-- `(*Param).decodeUint32ValData`, `params.go:158-164`. -/
def decodeUint32Val (p : Param) : Res UInt32 :=
  if p.data.length ≠ 4 then .ok 0 else getUint32 p.data

/-- The loop of `decodeMultiUint32ValData`, `params.go:172-176`, reading `n` more words from
index `i`. -/
def decodeMultiLoop (d : Bytes) (i : Nat) : Nat → Res (List UInt32)
  | 0 => .ok []
  | n + 1 => do
    let u ← getUint32 (← rsub d (i * 4) ((i + 1) * 4))
    let us ← decodeMultiLoop d (i + 1) n
    return u :: us

/-- `(*Param).decodeMultiUint32ValData`, `params.go:166-177`; the nil result is the empty list. -/
def decodeMultiUint32Val (p : Param) : Res (List UInt32) :=
  let l := p.data.length
  if l % 4 ≠ 0 then .ok [] else decodeMultiLoop p.data 0 (l / 4)

end Param

end M3
