import Verif.Model.Header

/- Model of `messages/asp-inactive-ack.go`, written by `tools/gen_messages.py`. -/

namespace M3.Msg

/-- `AspInactiveAck`, `messages/asp-inactive-ack.go:17-21`. The embedded `*Header` is taken to be non-nil. -/
structure AspInactiveAck where
  header : Header
  routingContext : Option Param
  infoString : Option Param
  deriving DecidableEq, Repr

namespace AspInactiveAck

/-- `&AspInactiveAck{}`, `messages/asp-inactive-ack.go:75-81`; the nil header, which `UnmarshalBinary` overwrites first, is a zero header. -/
def zero : AspInactiveAck := ⟨Header.zero, none, none⟩

/-- `(*AspInactiveAck).MarshalLen`, `messages/asp-inactive-ack.go:121-130`. -/
def marshalLen (m : AspInactiveAck) : Nat :=
  let l := 8
  let l := addLen l m.routingContext
  let l := addLen l m.infoString
  l

/-- `(*AspInactiveAck).SetLength`, `messages/asp-inactive-ack.go:109-118`. -/
def setLength (m : AspInactiveAck) : AspInactiveAck :=
  let m := { m with routingContext := m.routingContext.map Param.setLength }
  let m := { m with infoString := m.infoString.map Param.setLength }
  { m with header := { m.header with length := UInt32.ofNat m.marshalLen } }

/-- `NewAspInactiveAck`, `messages/asp-inactive-ack.go:24-38`. -/
def new (rtCtx info : Option Param) : AspInactiveAck :=
  setLength {
    header := { version := 1, reserved := 0, cls := 4, typ := 4, length := 0, payload := [] }
    routingContext := rtCtx
    infoString := info
  }

/-- `(*AspInactiveAck).MarshalTo`, `messages/asp-inactive-ack.go:50-72`. Result: the message after the call (`Header.Payload` is
overwritten) and the caller's backing array. -/
def marshalTo (m : AspInactiveAck) (b : Slice) : Res (AspInactiveAck × Bytes) := do
  if b.len < m.marshalLen then .err .msgTooShortToMarshal else
  let payload := Slice.make (m.marshalLen - 8)
  let (payload, offset) ← putParam payload 0 m.routingContext
  let (payload, _) ← putParam payload offset m.infoString
  let m := { m with header := { m.header with payload := payload.bytes } }
  let mem ← m.header.marshalTo b
  return (m, mem)

/-- `(*AspInactiveAck).MarshalBinary`, `messages/asp-inactive-ack.go:41-47`. -/
def marshalBinary (m : AspInactiveAck) : Res (AspInactiveAck × Bytes) := do
  let b := Slice.make m.marshalLen
  let (m, mem) ← m.marshalTo b
  return (m, { b with mem := mem }.bytes)

/-- One iteration of the switch in `UnmarshalBinary`, `messages/asp-inactive-ack.go:96-103`. -/
def setParam (m : AspInactiveAck) (pr : Param) : Res AspInactiveAck :=
  if pr.tag = Tag.routingContext then .ok { m with routingContext := some pr }
  else if pr.tag = Tag.infoString then .ok { m with infoString := some pr }
  else .err .msgInvalidParameter

/-- The `for _, pr := range prs` loop of `UnmarshalBinary`, `messages/asp-inactive-ack.go:95-104`. -/
def setParams (m : AspInactiveAck) : List Param → Res AspInactiveAck
  | [] => .ok m
  | pr :: prs => do
    let m ← m.setParam pr
    m.setParams prs

/-- `(*AspInactiveAck).UnmarshalBinary`, `messages/asp-inactive-ack.go:84-106`; on error the partly updated value is not kept. -/
def unmarshalBinary (m : AspInactiveAck) (b : Bytes) : Res AspInactiveAck := do
  let h ← Header.parse b
  let m := { m with header := h }
  let prs ← parseMultiParams m.header.payload
  m.setParams prs

/-- `ParseAspInactiveAck`, `messages/asp-inactive-ack.go:75-81`. -/
def parse (b : Bytes) : Res AspInactiveAck := zero.unmarshalBinary b

/-- `(*AspInactiveAck).Version`, `messages/asp-inactive-ack.go:142-144`. -/
def version (m : AspInactiveAck) : UInt8 := m.header.version

/-- `(*AspInactiveAck).MessageType`, `messages/asp-inactive-ack.go:147-149`. -/
def messageType (_m : AspInactiveAck) : UInt8 := 4

/-- `(*AspInactiveAck).MessageClass`, `messages/asp-inactive-ack.go:152-154`. -/
def messageClass (_m : AspInactiveAck) : UInt8 := 4

end AspInactiveAck

end M3.Msg
