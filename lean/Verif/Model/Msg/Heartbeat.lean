import Verif.Model.Header

/- Model of `messages/heartbeat.go`, written by `tools/gen_messages.py`. -/

namespace M3.Msg

/-- `Heartbeat`, `messages/heartbeat.go:17-21`. The embedded `*Header` is taken to be non-nil. -/
structure Heartbeat where
  header : Header
  aspIdentifier : Option Param
  heartbeatData : Option Param
  deriving DecidableEq, Repr

namespace Heartbeat

/-- `&Heartbeat{}`, `messages/heartbeat.go:66-72`; the nil header, which `UnmarshalBinary` overwrites first, is a zero header. -/
def zero : Heartbeat := ⟨Header.zero, none, none⟩

/-- `(*Heartbeat).MarshalLen`, `messages/heartbeat.go:107-113`. -/
def marshalLen (m : Heartbeat) : Nat :=
  let l := 8
  let l := addLen l m.heartbeatData
  l

/-- `(*Heartbeat).SetLength`, `messages/heartbeat.go:98-104`. -/
def setLength (m : Heartbeat) : Heartbeat :=
  let m := { m with heartbeatData := m.heartbeatData.map Param.setLength }
  { m with header := { m.header with length := UInt32.ofNat m.marshalLen } }

/-- `NewHeartbeat`, `messages/heartbeat.go:24-37`. -/
def new (hbData : Option Param) : Heartbeat :=
  setLength {
    header := { version := 1, reserved := 0, cls := 3, typ := 3, length := 0, payload := [] }
    aspIdentifier := none
    heartbeatData := hbData
  }

/-- `(*Heartbeat).MarshalTo`, `messages/heartbeat.go:49-63`. Result: the message after the call (`Header.Payload` is
overwritten) and the caller's backing array. -/
def marshalTo (m : Heartbeat) (b : Slice) : Res (Heartbeat × Bytes) := do
  if b.len < m.marshalLen then .err .msgTooShortToMarshal else
  let payload := Slice.make (m.marshalLen - 8)
  let (payload, _) ← putParam payload 0 m.heartbeatData
  let m := { m with header := { m.header with payload := payload.bytes } }
  let mem ← m.header.marshalTo b
  return (m, mem)

/-- `(*Heartbeat).MarshalBinary`, `messages/heartbeat.go:40-46`. -/
def marshalBinary (m : Heartbeat) : Res (Heartbeat × Bytes) := do
  let b := Slice.make m.marshalLen
  let (m, mem) ← m.marshalTo b
  return (m, { b with mem := mem }.bytes)

/-- One iteration of the switch in `UnmarshalBinary`, `messages/heartbeat.go:87-92`. -/
def setParam (m : Heartbeat) (pr : Param) : Res Heartbeat :=
  if pr.tag = Tag.heartbeatData then .ok { m with heartbeatData := some pr }
  else .err .msgInvalidParameter

/-- The `for _, pr := range prs` loop of `UnmarshalBinary`, `messages/heartbeat.go:86-93`. -/
def setParams (m : Heartbeat) : List Param → Res Heartbeat
  | [] => .ok m
  | pr :: prs => do
    let m ← m.setParam pr
    m.setParams prs

/-- `(*Heartbeat).UnmarshalBinary`, `messages/heartbeat.go:75-95`; on error the partly updated value is not kept. -/
def unmarshalBinary (m : Heartbeat) (b : Bytes) : Res Heartbeat := do
  let h ← Header.parse b
  let m := { m with header := h }
  let prs ← parseMultiParams m.header.payload
  m.setParams prs

/-- `ParseHeartbeat`, `messages/heartbeat.go:66-72`. -/
def parse (b : Bytes) : Res Heartbeat := zero.unmarshalBinary b

/-- `(*Heartbeat).Version`, `messages/heartbeat.go:124-126`. -/
def version (m : Heartbeat) : UInt8 := m.header.version

/-- `(*Heartbeat).MessageType`, `messages/heartbeat.go:129-131`. -/
def messageType (_m : Heartbeat) : UInt8 := 3

/-- `(*Heartbeat).MessageClass`, `messages/heartbeat.go:134-136`. -/
def messageClass (_m : Heartbeat) : UInt8 := 3

end Heartbeat

end M3.Msg
