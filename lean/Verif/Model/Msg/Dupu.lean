import Verif.Model.Header

/- Model of `messages/dupu.go`, written by `tools/gen_messages.py`. -/

namespace M3.Msg

/-- `DestinationUserPartUnavailable`, `messages/dupu.go:16-23`. The embedded `*Header` is taken to be non-nil. -/
structure DestinationUserPartUnavailable where
  header : Header
  networkAppearance : Option Param
  routingContext : Option Param
  affectedPointCode : Option Param
  userCause : Option Param
  infoString : Option Param
  deriving DecidableEq, Repr

namespace DestinationUserPartUnavailable

/-- `&DestinationUserPartUnavailable{}`, `messages/dupu.go:96-102`; the nil header, which `UnmarshalBinary` overwrites first, is a zero header. -/
def zero : DestinationUserPartUnavailable := ⟨Header.zero, none, none, none, none, none⟩

/-- `(*DestinationUserPartUnavailable).MarshalLen`, `messages/dupu.go:157-175`. -/
def marshalLen (m : DestinationUserPartUnavailable) : Nat :=
  let l := 8
  let l := addLen l m.networkAppearance
  let l := addLen l m.routingContext
  let l := addLen l m.affectedPointCode
  let l := addLen l m.userCause
  let l := addLen l m.infoString
  l

/-- `(*DestinationUserPartUnavailable).SetLength`, `messages/dupu.go:136-154`. -/
def setLength (m : DestinationUserPartUnavailable) : DestinationUserPartUnavailable :=
  let m := { m with networkAppearance := m.networkAppearance.map Param.setLength }
  let m := { m with routingContext := m.routingContext.map Param.setLength }
  let m := { m with affectedPointCode := m.affectedPointCode.map Param.setLength }
  let m := { m with userCause := m.userCause.map Param.setLength }
  let m := { m with infoString := m.infoString.map Param.setLength }
  { m with header := { m.header with length := UInt32.ofNat m.marshalLen } }

/-- `NewDestinationUserPartUnavailable`, `messages/dupu.go:26-43`. -/
def new (nwApr rtCtx apcs cause info : Option Param) : DestinationUserPartUnavailable :=
  setLength {
    header := { version := 1, reserved := 0, cls := 2, typ := 5, length := 0, payload := [] }
    networkAppearance := nwApr
    routingContext := rtCtx
    affectedPointCode := apcs
    userCause := cause
    infoString := info
  }

/-- `(*DestinationUserPartUnavailable).MarshalTo`, `messages/dupu.go:55-93`. Result: the message after the call (`Header.Payload` is
overwritten) and the caller's backing array. -/
def marshalTo (m : DestinationUserPartUnavailable) (b : Slice) : Res (DestinationUserPartUnavailable × Bytes) := do
  if b.len < m.marshalLen then .err .msgTooShortToMarshal else
  let payload := Slice.make (m.marshalLen - 8)
  let (payload, offset) ← putParam payload 0 m.networkAppearance
  let (payload, offset) ← putParam payload offset m.routingContext
  let (payload, offset) ← putParam payload offset m.affectedPointCode
  let (payload, offset) ← putParam payload offset m.userCause
  let (payload, _) ← putParam payload offset m.infoString
  let m := { m with header := { m.header with payload := payload.bytes } }
  let mem ← m.header.marshalTo b
  return (m, mem)

/-- `(*DestinationUserPartUnavailable).MarshalBinary`, `messages/dupu.go:46-52`. -/
def marshalBinary (m : DestinationUserPartUnavailable) : Res (DestinationUserPartUnavailable × Bytes) := do
  let b := Slice.make m.marshalLen
  let (m, mem) ← m.marshalTo b
  return (m, { b with mem := mem }.bytes)

/-- One iteration of the switch in `UnmarshalBinary`, `messages/dupu.go:117-130`. -/
def setParam (m : DestinationUserPartUnavailable) (pr : Param) : Res DestinationUserPartUnavailable :=
  if pr.tag = Tag.networkAppearance then .ok { m with networkAppearance := some pr }
  else if pr.tag = Tag.routingContext then .ok { m with routingContext := some pr }
  else if pr.tag = Tag.affectedPointCode then .ok { m with affectedPointCode := some pr }
  else if pr.tag = Tag.userCause then .ok { m with userCause := some pr }
  else if pr.tag = Tag.infoString then .ok { m with infoString := some pr }
  else .err (.wrapped "DUPU" .msgInvalidParameter)

/-- The `for _, pr := range prs` loop of `UnmarshalBinary`, `messages/dupu.go:116-131`. -/
def setParams (m : DestinationUserPartUnavailable) : List Param → Res DestinationUserPartUnavailable
  | [] => .ok m
  | pr :: prs => do
    let m ← m.setParam pr
    m.setParams prs

/-- `(*DestinationUserPartUnavailable).UnmarshalBinary`, `messages/dupu.go:105-133`; on error the partly updated value is not kept. -/
def unmarshalBinary (m : DestinationUserPartUnavailable) (b : Bytes) : Res DestinationUserPartUnavailable := do
  let h ← Header.parse b
  let m := { m with header := h }
  let prs ← parseMultiParams m.header.payload
  m.setParams prs

/-- `ParseDestinationUserPartUnavailable`, `messages/dupu.go:96-102`. -/
def parse (b : Bytes) : Res DestinationUserPartUnavailable := zero.unmarshalBinary b

/-- `(*DestinationUserPartUnavailable).Version`, `messages/dupu.go:178-180`. -/
def version (m : DestinationUserPartUnavailable) : UInt8 := m.header.version

/-- `(*DestinationUserPartUnavailable).MessageType`, `messages/dupu.go:183-185`. -/
def messageType (_m : DestinationUserPartUnavailable) : UInt8 := 5

/-- `(*DestinationUserPartUnavailable).MessageClass`, `messages/dupu.go:188-190`. -/
def messageClass (_m : DestinationUserPartUnavailable) : UInt8 := 2

end DestinationUserPartUnavailable

end M3.Msg
