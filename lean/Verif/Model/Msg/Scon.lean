import Verif.Model.Header

/- Model of `messages/scon.go`, written by `tools/gen_messages.py`. -/

namespace M3.Msg

/-- `SignallingCongestion`, `messages/scon.go:16-24`. The embedded `*Header` is taken to be non-nil. -/
structure SignallingCongestion where
  header : Header
  networkAppearance : Option Param
  routingContext : Option Param
  affectedPointCode : Option Param
  concernedDestination : Option Param
  congestionIndications : Option Param
  infoString : Option Param
  deriving DecidableEq, Repr

namespace SignallingCongestion

/-- `&SignallingCongestion{}`, `messages/scon.go:105-111`; the nil header, which `UnmarshalBinary` overwrites first, is a zero header. -/
def zero : SignallingCongestion := ⟨Header.zero, none, none, none, none, none, none⟩

/-- `(*SignallingCongestion).MarshalLen`, `messages/scon.go:171-192`. -/
def marshalLen (m : SignallingCongestion) : Nat :=
  let l := 8
  let l := addLen l m.networkAppearance
  let l := addLen l m.routingContext
  let l := addLen l m.affectedPointCode
  let l := addLen l m.concernedDestination
  let l := addLen l m.congestionIndications
  let l := addLen l m.infoString
  l

/-- `(*SignallingCongestion).SetLength`, `messages/scon.go:147-168`. -/
def setLength (m : SignallingCongestion) : SignallingCongestion :=
  let m := { m with networkAppearance := m.networkAppearance.map Param.setLength }
  let m := { m with routingContext := m.routingContext.map Param.setLength }
  let m := { m with affectedPointCode := m.affectedPointCode.map Param.setLength }
  let m := { m with concernedDestination := m.concernedDestination.map Param.setLength }
  let m := { m with congestionIndications := m.congestionIndications.map Param.setLength }
  let m := { m with infoString := m.infoString.map Param.setLength }
  { m with header := { m.header with length := UInt32.ofNat m.marshalLen } }

/-- `NewSignallingCongestion`, `messages/scon.go:27-45`. -/
def new (nwApr rtCtx apc cdst ind info : Option Param) : SignallingCongestion :=
  setLength {
    header := { version := 1, reserved := 0, cls := 2, typ := 4, length := 0, payload := [] }
    networkAppearance := nwApr
    routingContext := rtCtx
    affectedPointCode := apc
    concernedDestination := cdst
    congestionIndications := ind
    infoString := info
  }

/-- `(*SignallingCongestion).MarshalTo`, `messages/scon.go:57-102`. Result: the message after the call (`Header.Payload` is
overwritten) and the caller's backing array. -/
def marshalTo (m : SignallingCongestion) (b : Slice) : Res (SignallingCongestion × Bytes) := do
  if b.len < m.marshalLen then .err .msgTooShortToMarshal else
  let payload := Slice.make (m.marshalLen - 8)
  let (payload, offset) ← putParam payload 0 m.networkAppearance
  let (payload, offset) ← putParam payload offset m.routingContext
  let (payload, offset) ← putParam payload offset m.affectedPointCode
  let (payload, offset) ← putParam payload offset m.concernedDestination
  let (payload, offset) ← putParam payload offset m.congestionIndications
  let (payload, _) ← putParam payload offset m.infoString
  let m := { m with header := { m.header with payload := payload.bytes } }
  let mem ← m.header.marshalTo b
  return (m, mem)

/-- `(*SignallingCongestion).MarshalBinary`, `messages/scon.go:48-54`. -/
def marshalBinary (m : SignallingCongestion) : Res (SignallingCongestion × Bytes) := do
  let b := Slice.make m.marshalLen
  let (m, mem) ← m.marshalTo b
  return (m, { b with mem := mem }.bytes)

/-- One iteration of the switch in `UnmarshalBinary`, `messages/scon.go:126-141`. -/
def setParam (m : SignallingCongestion) (pr : Param) : Res SignallingCongestion :=
  if pr.tag = Tag.networkAppearance then .ok { m with networkAppearance := some pr }
  else if pr.tag = Tag.routingContext then .ok { m with routingContext := some pr }
  else if pr.tag = Tag.affectedPointCode then .ok { m with affectedPointCode := some pr }
  else if pr.tag = Tag.concernedDestination then .ok { m with concernedDestination := some pr }
  else if pr.tag = Tag.congestionIndications then .ok { m with congestionIndications := some pr }
  else if pr.tag = Tag.infoString then .ok { m with infoString := some pr }
  else .err .msgInvalidParameter

/-- The `for _, pr := range prs` loop of `UnmarshalBinary`, `messages/scon.go:125-142`. -/
def setParams (m : SignallingCongestion) : List Param → Res SignallingCongestion
  | [] => .ok m
  | pr :: prs => do
    let m ← m.setParam pr
    m.setParams prs

/-- `(*SignallingCongestion).UnmarshalBinary`, `messages/scon.go:114-144`; on error the partly updated value is not kept. -/
def unmarshalBinary (m : SignallingCongestion) (b : Bytes) : Res SignallingCongestion := do
  let h ← Header.parse b
  let m := { m with header := h }
  let prs ← parseMultiParams m.header.payload
  m.setParams prs

/-- `ParseSignallingCongestion`, `messages/scon.go:105-111`. -/
def parse (b : Bytes) : Res SignallingCongestion := zero.unmarshalBinary b

/-- `(*SignallingCongestion).Version`, `messages/scon.go:208-210`. -/
def version (m : SignallingCongestion) : UInt8 := m.header.version

/-- `(*SignallingCongestion).MessageType`, `messages/scon.go:213-215`. -/
def messageType (_m : SignallingCongestion) : UInt8 := 4

/-- `(*SignallingCongestion).MessageClass`, `messages/scon.go:218-220`. -/
def messageClass (_m : SignallingCongestion) : UInt8 := 2

end SignallingCongestion

end M3.Msg
