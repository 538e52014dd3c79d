import Verif.Model.Header

/- Model of `messages/asp-down.go`, written by `tools/gen_messages.py`. -/

namespace M3.Msg

/-- `AspDown`, `messages/asp-down.go:17-21`. The embedded `*Header` is taken to be non-nil. -/
structure AspDown where
  header : Header
  aspIdentifier : Option Param
  infoString : Option Param
  deriving DecidableEq, Repr

namespace AspDown

/-- `&AspDown{}`, `messages/asp-down.go:66-72`; the nil header, which `UnmarshalBinary` overwrites first, is a zero header. -/
def zero : AspDown := ⟨Header.zero, none, none⟩

/-- `(*AspDown).MarshalLen`, `messages/asp-down.go:107-113`. -/
def marshalLen (m : AspDown) : Nat :=
  let l := 8
  let l := addLen l m.infoString
  l

/-- `(*AspDown).SetLength`, `messages/asp-down.go:98-104`. -/
def setLength (m : AspDown) : AspDown :=
  let m := { m with infoString := m.infoString.map Param.setLength }
  { m with header := { m.header with length := UInt32.ofNat m.marshalLen } }

/-- `NewAspDown`, `messages/asp-down.go:24-37`. -/
def new (info : Option Param) : AspDown :=
  setLength {
    header := { version := 1, reserved := 0, cls := 3, typ := 2, length := 0, payload := [] }
    aspIdentifier := none
    infoString := info
  }

/-- `(*AspDown).MarshalTo`, `messages/asp-down.go:49-63`. Result: the message after the call (`Header.Payload` is
overwritten) and the caller's backing array. -/
def marshalTo (m : AspDown) (b : Slice) : Res (AspDown × Bytes) := do
  if b.len < m.marshalLen then .err .msgTooShortToMarshal else
  let payload := Slice.make (m.marshalLen - 8)
  let (payload, _) ← putParam payload 0 m.infoString
  let m := { m with header := { m.header with payload := payload.bytes } }
  let mem ← m.header.marshalTo b
  return (m, mem)

/-- `(*AspDown).MarshalBinary`, `messages/asp-down.go:40-46`. -/
def marshalBinary (m : AspDown) : Res (AspDown × Bytes) := do
  let b := Slice.make m.marshalLen
  let (m, mem) ← m.marshalTo b
  return (m, { b with mem := mem }.bytes)

/-- One iteration of the switch in `UnmarshalBinary`, `messages/asp-down.go:87-92`. -/
def setParam (m : AspDown) (pr : Param) : Res AspDown :=
  if pr.tag = Tag.infoString then .ok { m with infoString := some pr }
  else .err .msgInvalidParameter

/-- The `for _, pr := range prs` loop of `UnmarshalBinary`, `messages/asp-down.go:86-93`. -/
def setParams (m : AspDown) : List Param → Res AspDown
  | [] => .ok m
  | pr :: prs => do
    let m ← m.setParam pr
    m.setParams prs

/-- `(*AspDown).UnmarshalBinary`, `messages/asp-down.go:75-95`; on error the partly updated value is not kept. -/
def unmarshalBinary (m : AspDown) (b : Bytes) : Res AspDown := do
  let h ← Header.parse b
  let m := { m with header := h }
  let prs ← parseMultiParams m.header.payload
  m.setParams prs

/-- `ParseAspDown`, `messages/asp-down.go:66-72`. -/
def parse (b : Bytes) : Res AspDown := zero.unmarshalBinary b

/-- `(*AspDown).Version`, `messages/asp-down.go:124-126`. -/
def version (m : AspDown) : UInt8 := m.header.version

/-- `(*AspDown).MessageType`, `messages/asp-down.go:129-131`. -/
def messageType (_m : AspDown) : UInt8 := 2

/-- `(*AspDown).MessageClass`, `messages/asp-down.go:134-136`. -/
def messageClass (_m : AspDown) : UInt8 := 3

end AspDown

end M3.Msg
