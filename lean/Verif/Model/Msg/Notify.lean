import Verif.Model.Header

/- Model of `messages/notify.go`, written by `tools/gen_messages.py`. -/

namespace M3.Msg

/-- `Notify`, `messages/notify.go:17-23`. The embedded `*Header` is taken to be non-nil. -/
structure Notify where
  header : Header
  status : Option Param
  aspIdentifier : Option Param
  routingContext : Option Param
  infoString : Option Param
  deriving DecidableEq, Repr

namespace Notify

/-- `&Notify{}`, `messages/notify.go:101-107`; the nil header, which `UnmarshalBinary` overwrites first, is a zero header. -/
def zero : Notify := ⟨Header.zero, none, none, none, none⟩

/-- `(*Notify).MarshalLen`, `messages/notify.go:157-173`. -/
def marshalLen (m : Notify) : Nat :=
  let l := 8
  let l := addLen l m.status
  let l := addLen l m.aspIdentifier
  let l := addLen l m.routingContext
  let l := addLen l m.infoString
  l

/-- `(*Notify).SetLength`, `messages/notify.go:139-154`. -/
def setLength (m : Notify) : Notify :=
  let m := { m with status := m.status.map Param.setLength }
  let m := { m with aspIdentifier := m.aspIdentifier.map Param.setLength }
  let m := { m with routingContext := m.routingContext.map Param.setLength }
  let m := { m with infoString := m.infoString.map Param.setLength }
  { m with header := { m.header with length := UInt32.ofNat m.marshalLen } }

/-- `NewNotify`, `messages/notify.go:26-42`. -/
def new (status aspID rtCtx info : Option Param) : Notify :=
  setLength {
    header := { version := 1, reserved := 0, cls := 0, typ := 1, length := 0, payload := [] }
    status := status
    aspIdentifier := aspID
    routingContext := rtCtx
    infoString := info
  }

/-- `(*Notify).MarshalTo`, `messages/notify.go:54-98`. Result: the message after the call (`Header.Payload` is
overwritten) and the caller's backing array. -/
def marshalTo (m : Notify) (b : Slice) : Res (Notify × Bytes) := do
  if b.len < m.marshalLen then .err .msgTooShortToMarshal else
  let payload := Slice.make (m.marshalLen - 8)
  let (payload, offset) ← putParam payload 0 m.status
  let (payload, offset) ← putParam payload offset m.aspIdentifier
  let (payload, offset) ← putParam payload offset m.routingContext
  let (payload, _) ← putParam payload offset m.infoString
  let m := { m with header := { m.header with payload := payload.bytes } }
  let mem ← m.header.marshalTo b
  return (m, mem)

/-- `(*Notify).MarshalBinary`, `messages/notify.go:45-51`. -/
def marshalBinary (m : Notify) : Res (Notify × Bytes) := do
  let b := Slice.make m.marshalLen
  let (m, mem) ← m.marshalTo b
  return (m, { b with mem := mem }.bytes)

/-- One iteration of the switch in `UnmarshalBinary`, `messages/notify.go:122-133`. -/
def setParam (m : Notify) (pr : Param) : Res Notify :=
  if pr.tag = Tag.status then .ok { m with status := some pr }
  else if pr.tag = Tag.aspIdentifier then .ok { m with aspIdentifier := some pr }
  else if pr.tag = Tag.routingContext then .ok { m with routingContext := some pr }
  else if pr.tag = Tag.infoString then .ok { m with infoString := some pr }
  else .err .msgInvalidParameter

/-- The `for _, pr := range prs` loop of `UnmarshalBinary`, `messages/notify.go:121-134`. -/
def setParams (m : Notify) : List Param → Res Notify
  | [] => .ok m
  | pr :: prs => do
    let m ← m.setParam pr
    m.setParams prs

/-- `(*Notify).UnmarshalBinary`, `messages/notify.go:110-136`; on error the partly updated value is not kept. -/
def unmarshalBinary (m : Notify) (b : Bytes) : Res Notify := do
  let h ← Header.parse b
  let m := { m with header := h }
  let prs ← parseMultiParams m.header.payload
  m.setParams prs

/-- `ParseNotify`, `messages/notify.go:101-107`. -/
def parse (b : Bytes) : Res Notify := zero.unmarshalBinary b

/-- `(*Notify).Version`, `messages/notify.go:187-189`. -/
def version (m : Notify) : UInt8 := m.header.version

/-- `(*Notify).MessageType`, `messages/notify.go:192-194`. -/
def messageType (_m : Notify) : UInt8 := 1

/-- `(*Notify).MessageClass`, `messages/notify.go:197-199`. -/
def messageClass (_m : Notify) : UInt8 := 0

end Notify

end M3.Msg
