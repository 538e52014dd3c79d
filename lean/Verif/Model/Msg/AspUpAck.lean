import Verif.Model.Header

/- Model of `messages/asp-up-ack.go`, written by `tools/gen_messages.py`. -/

namespace M3.Msg

/-- `AspUpAck`, `messages/asp-up-ack.go:17-21`. The embedded `*Header` is taken to be non-nil. -/
structure AspUpAck where
  header : Header
  aspIdentifier : Option Param
  infoString : Option Param
  deriving DecidableEq, Repr

namespace AspUpAck

/-- `&AspUpAck{}`, `messages/asp-up-ack.go:75-81`; the nil header, which `UnmarshalBinary` overwrites first, is a zero header. -/
def zero : AspUpAck := ⟨Header.zero, none, none⟩

/-- `(*AspUpAck).MarshalLen`, `messages/asp-up-ack.go:121-130`. -/
def marshalLen (m : AspUpAck) : Nat :=
  let l := 8
  let l := addLen l m.aspIdentifier
  let l := addLen l m.infoString
  l

/-- `(*AspUpAck).SetLength`, `messages/asp-up-ack.go:109-118`. -/
def setLength (m : AspUpAck) : AspUpAck :=
  let m := { m with aspIdentifier := m.aspIdentifier.map Param.setLength }
  let m := { m with infoString := m.infoString.map Param.setLength }
  { m with header := { m.header with length := UInt32.ofNat m.marshalLen } }

/-- `NewAspUpAck`, `messages/asp-up-ack.go:24-38`. -/
def new (aspID info : Option Param) : AspUpAck :=
  setLength {
    header := { version := 1, reserved := 0, cls := 3, typ := 4, length := 0, payload := [] }
    aspIdentifier := aspID
    infoString := info
  }

/-- `(*AspUpAck).MarshalTo`, `messages/asp-up-ack.go:50-72`. Result: the message after the call (`Header.Payload` is
overwritten) and the caller's backing array. -/
def marshalTo (m : AspUpAck) (b : Slice) : Res (AspUpAck × Bytes) := do
  if b.len < m.marshalLen then .err .msgTooShortToMarshal else
  let payload := Slice.make (m.marshalLen - 8)
  let (payload, offset) ← putParam payload 0 m.aspIdentifier
  let (payload, _) ← putParam payload offset m.infoString
  let m := { m with header := { m.header with payload := payload.bytes } }
  let mem ← m.header.marshalTo b
  return (m, mem)

/-- `(*AspUpAck).MarshalBinary`, `messages/asp-up-ack.go:41-47`. -/
def marshalBinary (m : AspUpAck) : Res (AspUpAck × Bytes) := do
  let b := Slice.make m.marshalLen
  let (m, mem) ← m.marshalTo b
  return (m, { b with mem := mem }.bytes)

/-- One iteration of the switch in `UnmarshalBinary`, `messages/asp-up-ack.go:96-103`. -/
def setParam (m : AspUpAck) (pr : Param) : Res AspUpAck :=
  if pr.tag = Tag.aspIdentifier then .ok { m with aspIdentifier := some pr }
  else if pr.tag = Tag.infoString then .ok { m with infoString := some pr }
  else .err .msgInvalidParameter

/-- The `for _, pr := range prs` loop of `UnmarshalBinary`, `messages/asp-up-ack.go:95-104`. -/
def setParams (m : AspUpAck) : List Param → Res AspUpAck
  | [] => .ok m
  | pr :: prs => do
    let m ← m.setParam pr
    m.setParams prs

/-- `(*AspUpAck).UnmarshalBinary`, `messages/asp-up-ack.go:84-106`; on error the partly updated value is not kept. -/
def unmarshalBinary (m : AspUpAck) (b : Bytes) : Res AspUpAck := do
  let h ← Header.parse b
  let m := { m with header := h }
  let prs ← parseMultiParams m.header.payload
  m.setParams prs

/-- `ParseAspUpAck`, `messages/asp-up-ack.go:75-81`. -/
def parse (b : Bytes) : Res AspUpAck := zero.unmarshalBinary b

/-- `(*AspUpAck).Version`, `messages/asp-up-ack.go:142-144`. -/
def version (m : AspUpAck) : UInt8 := m.header.version

/-- `(*AspUpAck).MessageType`, `messages/asp-up-ack.go:147-149`. -/
def messageType (_m : AspUpAck) : UInt8 := 4

/-- `(*AspUpAck).MessageClass`, `messages/asp-up-ack.go:152-154`. -/
def messageClass (_m : AspUpAck) : UInt8 := 3

end AspUpAck

end M3.Msg
