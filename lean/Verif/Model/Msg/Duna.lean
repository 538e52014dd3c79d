import Verif.Model.Header

/- Model of `messages/duna.go`, written by `tools/gen_messages.py`. -/

namespace M3.Msg

/-- `DestinationUnavailable`, `messages/duna.go:17-23`. The embedded `*Header` is taken to be non-nil. -/
structure DestinationUnavailable where
  header : Header
  networkAppearance : Option Param
  routingContext : Option Param
  affectedPointCode : Option Param
  infoString : Option Param
  deriving DecidableEq, Repr

namespace DestinationUnavailable

/-- `&DestinationUnavailable{}`, `messages/duna.go:89-95`; the nil header, which `UnmarshalBinary` overwrites first, is a zero header. -/
def zero : DestinationUnavailable := ⟨Header.zero, none, none, none, none⟩

/-- `(*DestinationUnavailable).MarshalLen`, `messages/duna.go:145-160`. -/
def marshalLen (m : DestinationUnavailable) : Nat :=
  let l := 8
  let l := addLen l m.networkAppearance
  let l := addLen l m.routingContext
  let l := addLen l m.affectedPointCode
  let l := addLen l m.infoString
  l

/-- `(*DestinationUnavailable).SetLength`, `messages/duna.go:127-142`. -/
def setLength (m : DestinationUnavailable) : DestinationUnavailable :=
  let m := { m with networkAppearance := m.networkAppearance.map Param.setLength }
  let m := { m with routingContext := m.routingContext.map Param.setLength }
  let m := { m with affectedPointCode := m.affectedPointCode.map Param.setLength }
  let m := { m with infoString := m.infoString.map Param.setLength }
  { m with header := { m.header with length := UInt32.ofNat m.marshalLen } }

/-- `NewDestinationUnavailable`, `messages/duna.go:26-42`. -/
def new (nwApr rtCtx apcs info : Option Param) : DestinationUnavailable :=
  setLength {
    header := { version := 1, reserved := 0, cls := 2, typ := 1, length := 0, payload := [] }
    networkAppearance := nwApr
    routingContext := rtCtx
    affectedPointCode := apcs
    infoString := info
  }

/-- `(*DestinationUnavailable).MarshalTo`, `messages/duna.go:54-86`. Result: the message after the call (`Header.Payload` is
overwritten) and the caller's backing array. -/
def marshalTo (m : DestinationUnavailable) (b : Slice) : Res (DestinationUnavailable × Bytes) := do
  if b.len < m.marshalLen then .err .msgTooShortToMarshal else
  let payload := Slice.make (m.marshalLen - 8)
  let (payload, offset) ← putParam payload 0 m.networkAppearance
  let (payload, offset) ← putParam payload offset m.routingContext
  let (payload, offset) ← putParam payload offset m.affectedPointCode
  let (payload, _) ← putParam payload offset m.infoString
  let m := { m with header := { m.header with payload := payload.bytes } }
  let mem ← m.header.marshalTo b
  return (m, mem)

/-- `(*DestinationUnavailable).MarshalBinary`, `messages/duna.go:45-51`. -/
def marshalBinary (m : DestinationUnavailable) : Res (DestinationUnavailable × Bytes) := do
  let b := Slice.make m.marshalLen
  let (m, mem) ← m.marshalTo b
  return (m, { b with mem := mem }.bytes)

/-- One iteration of the switch in `UnmarshalBinary`, `messages/duna.go:110-121`. -/
def setParam (m : DestinationUnavailable) (pr : Param) : Res DestinationUnavailable :=
  if pr.tag = Tag.networkAppearance then .ok { m with networkAppearance := some pr }
  else if pr.tag = Tag.routingContext then .ok { m with routingContext := some pr }
  else if pr.tag = Tag.affectedPointCode then .ok { m with affectedPointCode := some pr }
  else if pr.tag = Tag.infoString then .ok { m with infoString := some pr }
  else .err (.wrapped "DUNA" .msgInvalidParameter)

/-- The `for _, pr := range prs` loop of `UnmarshalBinary`, `messages/duna.go:109-122`. -/
def setParams (m : DestinationUnavailable) : List Param → Res DestinationUnavailable
  | [] => .ok m
  | pr :: prs => do
    let m ← m.setParam pr
    m.setParams prs

/-- `(*DestinationUnavailable).UnmarshalBinary`, `messages/duna.go:98-124`; on error the partly updated value is not kept. -/
def unmarshalBinary (m : DestinationUnavailable) (b : Bytes) : Res DestinationUnavailable := do
  let h ← Header.parse b
  let m := { m with header := h }
  let prs ← parseMultiParams m.header.payload
  m.setParams prs

/-- `ParseDestinationUnavailable`, `messages/duna.go:89-95`. -/
def parse (b : Bytes) : Res DestinationUnavailable := zero.unmarshalBinary b

/-- `(*DestinationUnavailable).Version`, `messages/duna.go:163-165`. -/
def version (m : DestinationUnavailable) : UInt8 := m.header.version

/-- `(*DestinationUnavailable).MessageType`, `messages/duna.go:168-170`. -/
def messageType (_m : DestinationUnavailable) : UInt8 := 1

/-- `(*DestinationUnavailable).MessageClass`, `messages/duna.go:173-175`. -/
def messageClass (_m : DestinationUnavailable) : UInt8 := 2

end DestinationUnavailable

end M3.Msg
