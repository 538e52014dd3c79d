import Verif.Model.Header

/- Model of `messages/asp-inactive.go`, written by `tools/gen_messages.py`. -/

namespace M3.Msg

/-- `AspInactive`, `messages/asp-inactive.go:17-21`. The embedded `*Header` is taken to be non-nil. -/
structure AspInactive where
  header : Header
  routingContext : Option Param
  infoString : Option Param
  deriving DecidableEq, Repr

namespace AspInactive

/-- `&AspInactive{}`, `messages/asp-inactive.go:75-81`; the nil header, which `UnmarshalBinary` overwrites first, is a zero header. -/
def zero : AspInactive := ⟨Header.zero, none, none⟩

/-- `(*AspInactive).MarshalLen`, `messages/asp-inactive.go:121-130`. -/
def marshalLen (m : AspInactive) : Nat :=
  let l := 8
  let l := addLen l m.routingContext
  let l := addLen l m.infoString
  l

/-- `(*AspInactive).SetLength`, `messages/asp-inactive.go:109-118`. -/
def setLength (m : AspInactive) : AspInactive :=
  let m := { m with routingContext := m.routingContext.map Param.setLength }
  let m := { m with infoString := m.infoString.map Param.setLength }
  { m with header := { m.header with length := UInt32.ofNat m.marshalLen } }

/-- `NewAspInactive`, `messages/asp-inactive.go:24-38`. -/
def new (rtCtx info : Option Param) : AspInactive :=
  setLength {
    header := { version := 1, reserved := 0, cls := 4, typ := 2, length := 0, payload := [] }
    routingContext := rtCtx
    infoString := info
  }

/-- `(*AspInactive).MarshalTo`, `messages/asp-inactive.go:50-72`. Result: the message after the call (`Header.Payload` is
overwritten) and the caller's backing array. -/
def marshalTo (m : AspInactive) (b : Slice) : Res (AspInactive × Bytes) := do
  if b.len < m.marshalLen then .err .msgTooShortToMarshal else
  let payload := Slice.make (m.marshalLen - 8)
  let (payload, offset) ← putParam payload 0 m.routingContext
  let (payload, _) ← putParam payload offset m.infoString
  let m := { m with header := { m.header with payload := payload.bytes } }
  let mem ← m.header.marshalTo b
  return (m, mem)

/-- `(*AspInactive).MarshalBinary`, `messages/asp-inactive.go:41-47`. -/
def marshalBinary (m : AspInactive) : Res (AspInactive × Bytes) := do
  let b := Slice.make m.marshalLen
  let (m, mem) ← m.marshalTo b
  return (m, { b with mem := mem }.bytes)

/-- One iteration of the switch in `UnmarshalBinary`, `messages/asp-inactive.go:96-103`. -/
def setParam (m : AspInactive) (pr : Param) : Res AspInactive :=
  if pr.tag = Tag.routingContext then .ok { m with routingContext := some pr }
  else if pr.tag = Tag.infoString then .ok { m with infoString := some pr }
  else .err .msgInvalidParameter

/-- The `for _, pr := range prs` loop of `UnmarshalBinary`, `messages/asp-inactive.go:95-104`. -/
def setParams (m : AspInactive) : List Param → Res AspInactive
  | [] => .ok m
  | pr :: prs => do
    let m ← m.setParam pr
    m.setParams prs

/-- `(*AspInactive).UnmarshalBinary`, `messages/asp-inactive.go:84-106`; on error the partly updated value is not kept. -/
def unmarshalBinary (m : AspInactive) (b : Bytes) : Res AspInactive := do
  let h ← Header.parse b
  let m := { m with header := h }
  let prs ← parseMultiParams m.header.payload
  m.setParams prs

/-- `ParseAspInactive`, `messages/asp-inactive.go:75-81`. -/
def parse (b : Bytes) : Res AspInactive := zero.unmarshalBinary b

/-- `(*AspInactive).Version`, `messages/asp-inactive.go:142-144`. -/
def version (m : AspInactive) : UInt8 := m.header.version

/-- `(*AspInactive).MessageType`, `messages/asp-inactive.go:147-149`. -/
def messageType (_m : AspInactive) : UInt8 := 2

/-- `(*AspInactive).MessageClass`, `messages/asp-inactive.go:152-154`. -/
def messageClass (_m : AspInactive) : UInt8 := 4

end AspInactive

end M3.Msg
