import Verif.Model.Header

/- Model of `messages/asp-active-ack.go`, written by `tools/gen_messages.py`. -/

namespace M3.Msg

/-- `AspActiveAck`, `messages/asp-active-ack.go:17-22`. The embedded `*Header` is taken to be non-nil. -/
structure AspActiveAck where
  header : Header
  trafficModeType : Option Param
  routingContext : Option Param
  infoString : Option Param
  deriving DecidableEq, Repr

namespace AspActiveAck

/-- `&AspActiveAck{}`, `messages/asp-active-ack.go:84-90`; the nil header, which `UnmarshalBinary` overwrites first, is a zero header. -/
def zero : AspActiveAck := ⟨Header.zero, none, none, none⟩

/-- `(*AspActiveAck).MarshalLen`, `messages/asp-active-ack.go:135-147`. -/
def marshalLen (m : AspActiveAck) : Nat :=
  let l := 8
  let l := addLen l m.trafficModeType
  let l := addLen l m.routingContext
  let l := addLen l m.infoString
  l

/-- `(*AspActiveAck).SetLength`, `messages/asp-active-ack.go:120-132`. -/
def setLength (m : AspActiveAck) : AspActiveAck :=
  let m := { m with trafficModeType := m.trafficModeType.map Param.setLength }
  let m := { m with routingContext := m.routingContext.map Param.setLength }
  let m := { m with infoString := m.infoString.map Param.setLength }
  { m with header := { m.header with length := UInt32.ofNat m.marshalLen } }

/-- `NewAspActiveAck`, `messages/asp-active-ack.go:25-40`. -/
def new (tmt rtCtx info : Option Param) : AspActiveAck :=
  setLength {
    header := { version := 1, reserved := 0, cls := 4, typ := 3, length := 0, payload := [] }
    trafficModeType := tmt
    routingContext := rtCtx
    infoString := info
  }

/-- `(*AspActiveAck).MarshalTo`, `messages/asp-active-ack.go:52-81`. Result: the message after the call (`Header.Payload` is
overwritten) and the caller's backing array. -/
def marshalTo (m : AspActiveAck) (b : Slice) : Res (AspActiveAck × Bytes) := do
  if b.len < m.marshalLen then .err .msgTooShortToMarshal else
  let payload := Slice.make (m.marshalLen - 8)
  let (payload, offset) ← putParam payload 0 m.trafficModeType
  let (payload, offset) ← putParam payload offset m.routingContext
  let (payload, _) ← putParam payload offset m.infoString
  let m := { m with header := { m.header with payload := payload.bytes } }
  let mem ← m.header.marshalTo b
  return (m, mem)

/-- `(*AspActiveAck).MarshalBinary`, `messages/asp-active-ack.go:43-49`. -/
def marshalBinary (m : AspActiveAck) : Res (AspActiveAck × Bytes) := do
  let b := Slice.make m.marshalLen
  let (m, mem) ← m.marshalTo b
  return (m, { b with mem := mem }.bytes)

/-- One iteration of the switch in `UnmarshalBinary`, `messages/asp-active-ack.go:105-114`. -/
def setParam (m : AspActiveAck) (pr : Param) : Res AspActiveAck :=
  if pr.tag = Tag.trafficModeType then .ok { m with trafficModeType := some pr }
  else if pr.tag = Tag.routingContext then .ok { m with routingContext := some pr }
  else if pr.tag = Tag.infoString then .ok { m with infoString := some pr }
  else .err .msgInvalidParameter

/-- The `for _, pr := range prs` loop of `UnmarshalBinary`, `messages/asp-active-ack.go:104-115`. -/
def setParams (m : AspActiveAck) : List Param → Res AspActiveAck
  | [] => .ok m
  | pr :: prs => do
    let m ← m.setParam pr
    m.setParams prs

/-- `(*AspActiveAck).UnmarshalBinary`, `messages/asp-active-ack.go:93-117`; on error the partly updated value is not kept. -/
def unmarshalBinary (m : AspActiveAck) (b : Bytes) : Res AspActiveAck := do
  let h ← Header.parse b
  let m := { m with header := h }
  let prs ← parseMultiParams m.header.payload
  m.setParams prs

/-- `ParseAspActiveAck`, `messages/asp-active-ack.go:84-90`. -/
def parse (b : Bytes) : Res AspActiveAck := zero.unmarshalBinary b

/-- `(*AspActiveAck).Version`, `messages/asp-active-ack.go:160-162`. -/
def version (m : AspActiveAck) : UInt8 := m.header.version

/-- `(*AspActiveAck).MessageType`, `messages/asp-active-ack.go:165-167`. -/
def messageType (_m : AspActiveAck) : UInt8 := 3

/-- `(*AspActiveAck).MessageClass`, `messages/asp-active-ack.go:170-172`. -/
def messageClass (_m : AspActiveAck) : UInt8 := 4

end AspActiveAck

end M3.Msg
