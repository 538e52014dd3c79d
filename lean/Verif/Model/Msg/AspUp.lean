import Verif.Model.Header

/- Model of `messages/asp-up.go`, written by `tools/gen_messages.py`. -/

namespace M3.Msg

/-- `AspUp`, `messages/asp-up.go:17-21`. The embedded `*Header` is taken to be non-nil. -/
structure AspUp where
  header : Header
  aspIdentifier : Option Param
  infoString : Option Param
  deriving DecidableEq, Repr

namespace AspUp

/-- `&AspUp{}`, `messages/asp-up.go:75-81`; the nil header, which `UnmarshalBinary` overwrites first, is a zero header. -/
def zero : AspUp := ⟨Header.zero, none, none⟩

/-- `(*AspUp).MarshalLen`, `messages/asp-up.go:121-130`. -/
def marshalLen (m : AspUp) : Nat :=
  let l := 8
  let l := addLen l m.aspIdentifier
  let l := addLen l m.infoString
  l

/-- `(*AspUp).SetLength`, `messages/asp-up.go:109-118`. -/
def setLength (m : AspUp) : AspUp :=
  let m := { m with aspIdentifier := m.aspIdentifier.map Param.setLength }
  let m := { m with infoString := m.infoString.map Param.setLength }
  { m with header := { m.header with length := UInt32.ofNat m.marshalLen } }

/-- `NewAspUp`, `messages/asp-up.go:24-38`. -/
def new (aspID info : Option Param) : AspUp :=
  setLength {
    header := { version := 1, reserved := 0, cls := 3, typ := 1, length := 0, payload := [] }
    aspIdentifier := aspID
    infoString := info
  }

/-- `(*AspUp).MarshalTo`, `messages/asp-up.go:50-72`. Result: the message after the call (`Header.Payload` is
overwritten) and the caller's backing array. -/
def marshalTo (m : AspUp) (b : Slice) : Res (AspUp × Bytes) := do
  if b.len < m.marshalLen then .err .msgTooShortToMarshal else
  let payload := Slice.make (m.marshalLen - 8)
  let (payload, offset) ← putParam payload 0 m.aspIdentifier
  let (payload, _) ← putParam payload offset m.infoString
  let m := { m with header := { m.header with payload := payload.bytes } }
  let mem ← m.header.marshalTo b
  return (m, mem)

/-- `(*AspUp).MarshalBinary`, `messages/asp-up.go:41-47`. -/
def marshalBinary (m : AspUp) : Res (AspUp × Bytes) := do
  let b := Slice.make m.marshalLen
  let (m, mem) ← m.marshalTo b
  return (m, { b with mem := mem }.bytes)

/-- One iteration of the switch in `UnmarshalBinary`, `messages/asp-up.go:96-103`. -/
def setParam (m : AspUp) (pr : Param) : Res AspUp :=
  if pr.tag = Tag.aspIdentifier then .ok { m with aspIdentifier := some pr }
  else if pr.tag = Tag.infoString then .ok { m with infoString := some pr }
  else .err .msgInvalidParameter

/-- The `for _, pr := range prs` loop of `UnmarshalBinary`, `messages/asp-up.go:95-104`. -/
def setParams (m : AspUp) : List Param → Res AspUp
  | [] => .ok m
  | pr :: prs => do
    let m ← m.setParam pr
    m.setParams prs

/-- `(*AspUp).UnmarshalBinary`, `messages/asp-up.go:84-106`; on error the partly updated value is not kept. -/
def unmarshalBinary (m : AspUp) (b : Bytes) : Res AspUp := do
  let h ← Header.parse b
  let m := { m with header := h }
  let prs ← parseMultiParams m.header.payload
  m.setParams prs

/-- `ParseAspUp`, `messages/asp-up.go:75-81`. -/
def parse (b : Bytes) : Res AspUp := zero.unmarshalBinary b

/-- `(*AspUp).Version`, `messages/asp-up.go:142-144`. -/
def version (m : AspUp) : UInt8 := m.header.version

/-- `(*AspUp).MessageType`, `messages/asp-up.go:147-149`. -/
def messageType (_m : AspUp) : UInt8 := 1

/-- `(*AspUp).MessageClass`, `messages/asp-up.go:152-154`. -/
def messageClass (_m : AspUp) : UInt8 := 3

end AspUp

end M3.Msg
