import Verif.Model.Header

/- Model of `messages/error.go`, written by `tools/gen_messages.py`. -/

namespace M3.Msg

/-- `Error`, `messages/error.go:17-24`. The embedded `*Header` is taken to be non-nil. -/
structure Error where
  header : Header
  errorCode : Option Param
  routingContext : Option Param
  networkAppearance : Option Param
  affectedPointCode : Option Param
  diagnosticInformation : Option Param
  deriving DecidableEq, Repr

namespace Error

/-- `&Error{}`, `messages/error.go:102-108`; the nil header, which `UnmarshalBinary` overwrites first, is a zero header. -/
def zero : Error := ⟨Header.zero, none, none, none, none, none⟩

/-- `(*Error).MarshalLen`, `messages/error.go:163-181`. -/
def marshalLen (m : Error) : Nat :=
  let l := 8
  let l := addLen l m.errorCode
  let l := addLen l m.routingContext
  let l := addLen l m.networkAppearance
  let l := addLen l m.affectedPointCode
  let l := addLen l m.diagnosticInformation
  l

/-- `(*Error).SetLength`, `messages/error.go:142-160`. -/
def setLength (m : Error) : Error :=
  let m := { m with errorCode := m.errorCode.map Param.setLength }
  let m := { m with routingContext := m.routingContext.map Param.setLength }
  let m := { m with networkAppearance := m.networkAppearance.map Param.setLength }
  let m := { m with affectedPointCode := m.affectedPointCode.map Param.setLength }
  let m := { m with diagnosticInformation := m.diagnosticInformation.map Param.setLength }
  { m with header := { m.header with length := UInt32.ofNat m.marshalLen } }

/-- `NewError`, `messages/error.go:27-44`. -/
def new (code rtCtx nwApr apc info : Option Param) : Error :=
  setLength {
    header := { version := 1, reserved := 0, cls := 0, typ := 0, length := 0, payload := [] }
    errorCode := code
    routingContext := rtCtx
    networkAppearance := nwApr
    affectedPointCode := apc
    diagnosticInformation := info
  }

/-- `(*Error).MarshalTo`, `messages/error.go:56-99`. Result: the message after the call (`Header.Payload` is
overwritten) and the caller's backing array. -/
def marshalTo (m : Error) (b : Slice) : Res (Error × Bytes) := do
  if b.len < m.marshalLen then .err .msgTooShortToMarshal else
  let payload := Slice.make (m.marshalLen - 8)
  let (payload, offset) ← putParam payload 0 m.errorCode
  let (payload, offset) ← putParam payload offset m.routingContext
  let (payload, offset) ← putParam payload offset m.networkAppearance
  let (payload, offset) ← putParam payload offset m.affectedPointCode
  let (payload, _) ← putParam payload offset m.diagnosticInformation
  let m := { m with header := { m.header with payload := payload.bytes } }
  let mem ← m.header.marshalTo b
  return (m, mem)

/-- `(*Error).MarshalBinary`, `messages/error.go:47-53`. -/
def marshalBinary (m : Error) : Res (Error × Bytes) := do
  let b := Slice.make m.marshalLen
  let (m, mem) ← m.marshalTo b
  return (m, { b with mem := mem }.bytes)

/-- One iteration of the switch in `UnmarshalBinary`, `messages/error.go:123-136`. -/
def setParam (m : Error) (pr : Param) : Res Error :=
  if pr.tag = Tag.errorCode then .ok { m with errorCode := some pr }
  else if pr.tag = Tag.routingContext then .ok { m with routingContext := some pr }
  else if pr.tag = Tag.networkAppearance then .ok { m with networkAppearance := some pr }
  else if pr.tag = Tag.affectedPointCode then .ok { m with affectedPointCode := some pr }
  else if pr.tag = Tag.diagnosticInformation then .ok { m with diagnosticInformation := some pr }
  else .err .msgInvalidParameter

/-- The `for _, pr := range prs` loop of `UnmarshalBinary`, `messages/error.go:122-137`. -/
def setParams (m : Error) : List Param → Res Error
  | [] => .ok m
  | pr :: prs => do
    let m ← m.setParam pr
    m.setParams prs

/-- `(*Error).UnmarshalBinary`, `messages/error.go:111-139`; on error the partly updated value is not kept. -/
def unmarshalBinary (m : Error) (b : Bytes) : Res Error := do
  let h ← Header.parse b
  let m := { m with header := h }
  let prs ← parseMultiParams m.header.payload
  m.setParams prs

/-- `ParseError`, `messages/error.go:102-108`. -/
def parse (b : Bytes) : Res Error := zero.unmarshalBinary b

/-- `(*Error).Version`, `messages/error.go:196-198`. -/
def version (m : Error) : UInt8 := m.header.version

/-- `(*Error).MessageType`, `messages/error.go:201-203`. -/
def messageType (_m : Error) : UInt8 := 0

/-- `(*Error).MessageClass`, `messages/error.go:206-208`. -/
def messageClass (_m : Error) : UInt8 := 0

end Error

end M3.Msg
