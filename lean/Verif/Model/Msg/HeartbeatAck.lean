import Verif.Model.Header

/- Model of `messages/heartbeat-ack.go`, written by `tools/gen_messages.py`. -/

namespace M3.Msg

/-- `HeartbeatAck`, `messages/heartbeat-ack.go:17-21`. The embedded `*Header` is taken to be non-nil. -/
structure HeartbeatAck where
  header : Header
  aspIdentifier : Option Param
  heartbeatData : Option Param
  deriving DecidableEq, Repr

namespace HeartbeatAck

/-- `&HeartbeatAck{}`, `messages/heartbeat-ack.go:66-72`; the nil header, which `UnmarshalBinary` overwrites first, is a zero header. -/
def zero : HeartbeatAck := ⟨Header.zero, none, none⟩

/-- `(*HeartbeatAck).MarshalLen`, `messages/heartbeat-ack.go:107-113`. -/
def marshalLen (m : HeartbeatAck) : Nat :=
  let l := 8
  let l := addLen l m.heartbeatData
  l

/-- `(*HeartbeatAck).SetLength`, `messages/heartbeat-ack.go:98-104`. -/
def setLength (m : HeartbeatAck) : HeartbeatAck :=
  let m := { m with heartbeatData := m.heartbeatData.map Param.setLength }
  { m with header := { m.header with length := UInt32.ofNat m.marshalLen } }

/-- `NewHeartbeatAck`, `messages/heartbeat-ack.go:24-37`. -/
def new (hbData : Option Param) : HeartbeatAck :=
  setLength {
    header := { version := 1, reserved := 0, cls := 3, typ := 6, length := 0, payload := [] }
    aspIdentifier := none
    heartbeatData := hbData
  }

/-- `(*HeartbeatAck).MarshalTo`, `messages/heartbeat-ack.go:49-63`. Result: the message after the call (`Header.Payload` is
overwritten) and the caller's backing array. -/
def marshalTo (m : HeartbeatAck) (b : Slice) : Res (HeartbeatAck × Bytes) := do
  if b.len < m.marshalLen then .err .msgTooShortToMarshal else
  let payload := Slice.make (m.marshalLen - 8)
  let (payload, _) ← putParam payload 0 m.heartbeatData
  let m := { m with header := { m.header with payload := payload.bytes } }
  let mem ← m.header.marshalTo b
  return (m, mem)

/-- `(*HeartbeatAck).MarshalBinary`, `messages/heartbeat-ack.go:40-46`. -/
def marshalBinary (m : HeartbeatAck) : Res (HeartbeatAck × Bytes) := do
  let b := Slice.make m.marshalLen
  let (m, mem) ← m.marshalTo b
  return (m, { b with mem := mem }.bytes)

/-- One iteration of the switch in `UnmarshalBinary`, `messages/heartbeat-ack.go:87-92`. -/
def setParam (m : HeartbeatAck) (pr : Param) : Res HeartbeatAck :=
  if pr.tag = Tag.heartbeatData then .ok { m with heartbeatData := some pr }
  else .err .msgInvalidParameter

/-- The `for _, pr := range prs` loop of `UnmarshalBinary`, `messages/heartbeat-ack.go:86-93`. -/
def setParams (m : HeartbeatAck) : List Param → Res HeartbeatAck
  | [] => .ok m
  | pr :: prs => do
    let m ← m.setParam pr
    m.setParams prs

/-- `(*HeartbeatAck).UnmarshalBinary`, `messages/heartbeat-ack.go:75-95`; on error the partly updated value is not kept. -/
def unmarshalBinary (m : HeartbeatAck) (b : Bytes) : Res HeartbeatAck := do
  let h ← Header.parse b
  let m := { m with header := h }
  let prs ← parseMultiParams m.header.payload
  m.setParams prs

/-- `ParseHeartbeatAck`, `messages/heartbeat-ack.go:66-72`. -/
def parse (b : Bytes) : Res HeartbeatAck := zero.unmarshalBinary b

/-- `(*HeartbeatAck).Version`, `messages/heartbeat-ack.go:124-126`. -/
def version (m : HeartbeatAck) : UInt8 := m.header.version

/-- `(*HeartbeatAck).MessageType`, `messages/heartbeat-ack.go:129-131`. -/
def messageType (_m : HeartbeatAck) : UInt8 := 6

/-- `(*HeartbeatAck).MessageClass`, `messages/heartbeat-ack.go:134-136`. -/
def messageClass (_m : HeartbeatAck) : UInt8 := 3

end HeartbeatAck

end M3.Msg
