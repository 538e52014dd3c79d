import Verif.Model.Header

/- Model of `messages/data.go`, written by `tools/gen_messages.py`. -/

namespace M3.Msg

/-- `Data`, `messages/data.go:17-23`. The embedded `*Header` is taken to be non-nil. -/
structure Data where
  header : Header
  networkAppearance : Option Param
  routingContext : Option Param
  protocolData : Option Param
  correlationID : Option Param
  deriving DecidableEq, Repr

namespace Data

/-- `&Data{}`, `messages/data.go:93-99`; the nil header, which `UnmarshalBinary` overwrites first, is a zero header. -/
def zero : Data := ⟨Header.zero, none, none, none, none⟩

/-- `(*Data).MarshalLen`, `messages/data.go:149-164`. -/
def marshalLen (m : Data) : Nat :=
  let l := 8
  let l := addLen l m.networkAppearance
  let l := addLen l m.routingContext
  let l := addLen l m.protocolData
  let l := addLen l m.correlationID
  l

/-- `(*Data).SetLength`, `messages/data.go:131-146`. -/
def setLength (m : Data) : Data :=
  let m := { m with networkAppearance := m.networkAppearance.map Param.setLength }
  let m := { m with routingContext := m.routingContext.map Param.setLength }
  let m := { m with protocolData := m.protocolData.map Param.setLength }
  let m := { m with correlationID := m.correlationID.map Param.setLength }
  { m with header := { m.header with length := UInt32.ofNat m.marshalLen } }

/-- `NewData`, `messages/data.go:26-42`. -/
def new (nwApr rtCtx pd corrID : Option Param) : Data :=
  setLength {
    header := { version := 1, reserved := 0, cls := 1, typ := 1, length := 0, payload := [] }
    networkAppearance := nwApr
    routingContext := rtCtx
    protocolData := pd
    correlationID := corrID
  }

/-- `(*Data).MarshalTo`, `messages/data.go:54-90`. Result: the message after the call (`Header.Payload` is
overwritten) and the caller's backing array. -/
def marshalTo (m : Data) (b : Slice) : Res (Data × Bytes) := do
  if b.len < m.marshalLen then .err .msgTooShortToMarshal else
  let payload := Slice.make (m.marshalLen - 8)
  let (payload, offset) ← putParam payload 0 m.networkAppearance
  let (payload, offset) ← putParam payload offset m.routingContext
  let (payload, offset) ← putParam payload offset m.protocolData
  let (payload, _) ← putParam payload offset m.correlationID
  let m := { m with header := { m.header with payload := payload.bytes } }
  let mem ← m.header.marshalTo b
  return (m, mem)

/-- `(*Data).MarshalBinary`, `messages/data.go:45-51`. -/
def marshalBinary (m : Data) : Res (Data × Bytes) := do
  let b := Slice.make m.marshalLen
  let (m, mem) ← m.marshalTo b
  return (m, { b with mem := mem }.bytes)

/-- One iteration of the switch in `UnmarshalBinary`, `messages/data.go:114-125`. -/
def setParam (m : Data) (pr : Param) : Res Data :=
  if pr.tag = Tag.networkAppearance then .ok { m with networkAppearance := some pr }
  else if pr.tag = Tag.routingContext then .ok { m with routingContext := some pr }
  else if pr.tag = Tag.protocolData then .ok { m with protocolData := some pr }
  else if pr.tag = Tag.correlationID then .ok { m with correlationID := some pr }
  else .err .msgInvalidParameter

/-- The `for _, pr := range prs` loop of `UnmarshalBinary`, `messages/data.go:113-126`. -/
def setParams (m : Data) : List Param → Res Data
  | [] => .ok m
  | pr :: prs => do
    let m ← m.setParam pr
    m.setParams prs

/-- `(*Data).UnmarshalBinary`, `messages/data.go:102-128`; on error the partly updated value is not kept. -/
def unmarshalBinary (m : Data) (b : Bytes) : Res Data := do
  let h ← Header.parse b
  let m := { m with header := h }
  let prs ← parseMultiParams m.header.payload
  m.setParams prs

/-- `ParseData`, `messages/data.go:93-99`. -/
def parse (b : Bytes) : Res Data := zero.unmarshalBinary b

/-- `(*Data).Version`, `messages/data.go:178-180`. -/
def version (m : Data) : UInt8 := m.header.version

/-- `(*Data).MessageType`, `messages/data.go:183-185`. -/
def messageType (_m : Data) : UInt8 := 1

/-- `(*Data).MessageClass`, `messages/data.go:188-190`. -/
def messageClass (_m : Data) : UInt8 := 1

end Data

end M3.Msg
