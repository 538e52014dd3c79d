import Verif.Model.Header

/- Model of `messages/asp-active.go`, written by `tools/gen_messages.py`. -/

namespace M3.Msg

/-- `AspActive`, `messages/asp-active.go:17-22`. The embedded `*Header` is taken to be non-nil. -/
structure AspActive where
  header : Header
  trafficModeType : Option Param
  routingContext : Option Param
  infoString : Option Param
  deriving DecidableEq, Repr

namespace AspActive

/-- `&AspActive{}`, `messages/asp-active.go:84-90`; the nil header, which `UnmarshalBinary` overwrites first, is a zero header. -/
def zero : AspActive := ⟨Header.zero, none, none, none⟩

/-- `(*AspActive).MarshalLen`, `messages/asp-active.go:135-147`. -/
def marshalLen (m : AspActive) : Nat :=
  let l := 8
  let l := addLen l m.trafficModeType
  let l := addLen l m.routingContext
  let l := addLen l m.infoString
  l

/-- `(*AspActive).SetLength`, `messages/asp-active.go:120-132`. -/
def setLength (m : AspActive) : AspActive :=
  let m := { m with trafficModeType := m.trafficModeType.map Param.setLength }
  let m := { m with routingContext := m.routingContext.map Param.setLength }
  let m := { m with infoString := m.infoString.map Param.setLength }
  { m with header := { m.header with length := UInt32.ofNat m.marshalLen } }

/-- `NewAspActive`, `messages/asp-active.go:25-40`. -/
def new (tmt rtCtx info : Option Param) : AspActive :=
  setLength {
    header := { version := 1, reserved := 0, cls := 4, typ := 1, length := 0, payload := [] }
    trafficModeType := tmt
    routingContext := rtCtx
    infoString := info
  }

/-- `(*AspActive).MarshalTo`, `messages/asp-active.go:52-81`. Result: the message after the call (`Header.Payload` is
overwritten) and the caller's backing array. -/
def marshalTo (m : AspActive) (b : Slice) : Res (AspActive × Bytes) := do
  if b.len < m.marshalLen then .err .msgTooShortToMarshal else
  let payload := Slice.make (m.marshalLen - 8)
  let (payload, offset) ← putParam payload 0 m.trafficModeType
  let (payload, offset) ← putParam payload offset m.routingContext
  let (payload, _) ← putParam payload offset m.infoString
  let m := { m with header := { m.header with payload := payload.bytes } }
  let mem ← m.header.marshalTo b
  return (m, mem)

/-- `(*AspActive).MarshalBinary`, `messages/asp-active.go:43-49`. -/
def marshalBinary (m : AspActive) : Res (AspActive × Bytes) := do
  let b := Slice.make m.marshalLen
  let (m, mem) ← m.marshalTo b
  return (m, { b with mem := mem }.bytes)

/-- One iteration of the switch in `UnmarshalBinary`, `messages/asp-active.go:105-114`. -/
def setParam (m : AspActive) (pr : Param) : Res AspActive :=
  if pr.tag = Tag.trafficModeType then .ok { m with trafficModeType := some pr }
  else if pr.tag = Tag.routingContext then .ok { m with routingContext := some pr }
  else if pr.tag = Tag.infoString then .ok { m with infoString := some pr }
  else .err .msgInvalidParameter

/-- The `for _, pr := range prs` loop of `UnmarshalBinary`, `messages/asp-active.go:104-115`. -/
def setParams (m : AspActive) : List Param → Res AspActive
  | [] => .ok m
  | pr :: prs => do
    let m ← m.setParam pr
    m.setParams prs

/-- `(*AspActive).UnmarshalBinary`, `messages/asp-active.go:93-117`; on error the partly updated value is not kept. -/
def unmarshalBinary (m : AspActive) (b : Bytes) : Res AspActive := do
  let h ← Header.parse b
  let m := { m with header := h }
  let prs ← parseMultiParams m.header.payload
  m.setParams prs

/-- `ParseAspActive`, `messages/asp-active.go:84-90`. -/
def parse (b : Bytes) : Res AspActive := zero.unmarshalBinary b

/-- `(*AspActive).Version`, `messages/asp-active.go:160-162`. -/
def version (m : AspActive) : UInt8 := m.header.version

/-- `(*AspActive).MessageType`, `messages/asp-active.go:165-167`. -/
def messageType (_m : AspActive) : UInt8 := 1

/-- `(*AspActive).MessageClass`, `messages/asp-active.go:170-172`. -/
def messageClass (_m : AspActive) : UInt8 := 4

end AspActive

end M3.Msg
