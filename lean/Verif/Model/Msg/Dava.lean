import Verif.Model.Header

/- Model of `messages/dava.go`, written by `tools/gen_messages.py`. -/

namespace M3.Msg

/-- `DestinationAvailable`, `messages/dava.go:17-23`. The embedded `*Header` is taken to be non-nil. -/
structure DestinationAvailable where
  header : Header
  networkAppearance : Option Param
  routingContext : Option Param
  affectedPointCode : Option Param
  infoString : Option Param
  deriving DecidableEq, Repr

namespace DestinationAvailable

/-- `&DestinationAvailable{}`, `messages/dava.go:89-95`; the nil header, which `UnmarshalBinary` overwrites first, is a zero header. -/
def zero : DestinationAvailable := ⟨Header.zero, none, none, none, none⟩

/-- `(*DestinationAvailable).MarshalLen`, `messages/dava.go:145-160`. -/
def marshalLen (m : DestinationAvailable) : Nat :=
  let l := 8
  let l := addLen l m.networkAppearance
  let l := addLen l m.routingContext
  let l := addLen l m.affectedPointCode
  let l := addLen l m.infoString
  l

/-- `(*DestinationAvailable).SetLength`, `messages/dava.go:127-142`. -/
def setLength (m : DestinationAvailable) : DestinationAvailable :=
  let m := { m with networkAppearance := m.networkAppearance.map Param.setLength }
  let m := { m with routingContext := m.routingContext.map Param.setLength }
  let m := { m with affectedPointCode := m.affectedPointCode.map Param.setLength }
  let m := { m with infoString := m.infoString.map Param.setLength }
  { m with header := { m.header with length := UInt32.ofNat m.marshalLen } }

/-- `NewDestinationAvailable`, `messages/dava.go:26-42`. -/
def new (nwApr rtCtx apcs info : Option Param) : DestinationAvailable :=
  setLength {
    header := { version := 1, reserved := 0, cls := 2, typ := 2, length := 0, payload := [] }
    networkAppearance := nwApr
    routingContext := rtCtx
    affectedPointCode := apcs
    infoString := info
  }

/-- `(*DestinationAvailable).MarshalTo`, `messages/dava.go:54-86`. Result: the message after the call (`Header.Payload` is
overwritten) and the caller's backing array. -/
def marshalTo (m : DestinationAvailable) (b : Slice) : Res (DestinationAvailable × Bytes) := do
  if b.len < m.marshalLen then .err .msgTooShortToMarshal else
  let payload := Slice.make (m.marshalLen - 8)
  let (payload, offset) ← putParam payload 0 m.networkAppearance
  let (payload, offset) ← putParam payload offset m.routingContext
  let (payload, offset) ← putParam payload offset m.affectedPointCode
  let (payload, _) ← putParam payload offset m.infoString
  let m := { m with header := { m.header with payload := payload.bytes } }
  let mem ← m.header.marshalTo b
  return (m, mem)

/-- `(*DestinationAvailable).MarshalBinary`, `messages/dava.go:45-51`. -/
def marshalBinary (m : DestinationAvailable) : Res (DestinationAvailable × Bytes) := do
  let b := Slice.make m.marshalLen
  let (m, mem) ← m.marshalTo b
  return (m, { b with mem := mem }.bytes)

/-- One iteration of the switch in `UnmarshalBinary`, `messages/dava.go:110-121`. -/
def setParam (m : DestinationAvailable) (pr : Param) : Res DestinationAvailable :=
  if pr.tag = Tag.networkAppearance then .ok { m with networkAppearance := some pr }
  else if pr.tag = Tag.routingContext then .ok { m with routingContext := some pr }
  else if pr.tag = Tag.affectedPointCode then .ok { m with affectedPointCode := some pr }
  else if pr.tag = Tag.infoString then .ok { m with infoString := some pr }
  else .err (.wrapped "DAVA" .msgInvalidParameter)

/-- The `for _, pr := range prs` loop of `UnmarshalBinary`, `messages/dava.go:109-122`. -/
def setParams (m : DestinationAvailable) : List Param → Res DestinationAvailable
  | [] => .ok m
  | pr :: prs => do
    let m ← m.setParam pr
    m.setParams prs

/-- `(*DestinationAvailable).UnmarshalBinary`, `messages/dava.go:98-124`; on error the partly updated value is not kept. -/
def unmarshalBinary (m : DestinationAvailable) (b : Bytes) : Res DestinationAvailable := do
  let h ← Header.parse b
  let m := { m with header := h }
  let prs ← parseMultiParams m.header.payload
  m.setParams prs

/-- `ParseDestinationAvailable`, `messages/dava.go:89-95`. -/
def parse (b : Bytes) : Res DestinationAvailable := zero.unmarshalBinary b

/-- `(*DestinationAvailable).Version`, `messages/dava.go:163-165`. -/
def version (m : DestinationAvailable) : UInt8 := m.header.version

/-- `(*DestinationAvailable).MessageType`, `messages/dava.go:168-170`. -/
def messageType (_m : DestinationAvailable) : UInt8 := 2

/-- `(*DestinationAvailable).MessageClass`, `messages/dava.go:173-175`. -/
def messageClass (_m : DestinationAvailable) : UInt8 := 2

end DestinationAvailable

end M3.Msg
