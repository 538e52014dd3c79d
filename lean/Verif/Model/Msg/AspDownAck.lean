import Verif.Model.Header

/- Model of `messages/asp-down-ack.go`, written by `tools/gen_messages.py`. -/

namespace M3.Msg

/-- `AspDownAck`, `messages/asp-down-ack.go:17-21`. The embedded `*Header` is taken to be non-nil. -/
structure AspDownAck where
  header : Header
  aspIdentifier : Option Param
  infoString : Option Param
  deriving DecidableEq, Repr

namespace AspDownAck

/-- `&AspDownAck{}`, `messages/asp-down-ack.go:66-72`; the nil header, which `UnmarshalBinary` overwrites first, is a zero header. -/
def zero : AspDownAck := ⟨Header.zero, none, none⟩

/-- `(*AspDownAck).MarshalLen`, `messages/asp-down-ack.go:107-113`. -/
def marshalLen (m : AspDownAck) : Nat :=
  let l := 8
  let l := addLen l m.infoString
  l

/-- `(*AspDownAck).SetLength`, `messages/asp-down-ack.go:98-104`. -/
def setLength (m : AspDownAck) : AspDownAck :=
  let m := { m with infoString := m.infoString.map Param.setLength }
  { m with header := { m.header with length := UInt32.ofNat m.marshalLen } }

/-- `NewAspDownAck`, `messages/asp-down-ack.go:24-37`. -/
def new (info : Option Param) : AspDownAck :=
  setLength {
    header := { version := 1, reserved := 0, cls := 3, typ := 5, length := 0, payload := [] }
    aspIdentifier := none
    infoString := info
  }

/-- `(*AspDownAck).MarshalTo`, `messages/asp-down-ack.go:49-63`. Result: the message after the call (`Header.Payload` is
overwritten) and the caller's backing array. -/
def marshalTo (m : AspDownAck) (b : Slice) : Res (AspDownAck × Bytes) := do
  if b.len < m.marshalLen then .err .msgTooShortToMarshal else
  let payload := Slice.make (m.marshalLen - 8)
  let (payload, _) ← putParam payload 0 m.infoString
  let m := { m with header := { m.header with payload := payload.bytes } }
  let mem ← m.header.marshalTo b
  return (m, mem)

/-- `(*AspDownAck).MarshalBinary`, `messages/asp-down-ack.go:40-46`. -/
def marshalBinary (m : AspDownAck) : Res (AspDownAck × Bytes) := do
  let b := Slice.make m.marshalLen
  let (m, mem) ← m.marshalTo b
  return (m, { b with mem := mem }.bytes)

/-- One iteration of the switch in `UnmarshalBinary`, `messages/asp-down-ack.go:87-92`. -/
def setParam (m : AspDownAck) (pr : Param) : Res AspDownAck :=
  if pr.tag = Tag.infoString then .ok { m with infoString := some pr }
  else .err .msgInvalidParameter

/-- The `for _, pr := range prs` loop of `UnmarshalBinary`, `messages/asp-down-ack.go:86-93`. -/
def setParams (m : AspDownAck) : List Param → Res AspDownAck
  | [] => .ok m
  | pr :: prs => do
    let m ← m.setParam pr
    m.setParams prs

/-- `(*AspDownAck).UnmarshalBinary`, `messages/asp-down-ack.go:75-95`; on error the partly updated value is not kept. -/
def unmarshalBinary (m : AspDownAck) (b : Bytes) : Res AspDownAck := do
  let h ← Header.parse b
  let m := { m with header := h }
  let prs ← parseMultiParams m.header.payload
  m.setParams prs

/-- `ParseAspDownAck`, `messages/asp-down-ack.go:66-72`. -/
def parse (b : Bytes) : Res AspDownAck := zero.unmarshalBinary b

/-- `(*AspDownAck).Version`, `messages/asp-down-ack.go:124-126`. -/
def version (m : AspDownAck) : UInt8 := m.header.version

/-- `(*AspDownAck).MessageType`, `messages/asp-down-ack.go:129-131`. -/
def messageType (_m : AspDownAck) : UInt8 := 5

/-- `(*AspDownAck).MessageClass`, `messages/asp-down-ack.go:134-136`. -/
def messageClass (_m : AspDownAck) : UInt8 := 3

end AspDownAck

end M3.Msg
