import Verif.Model.Params

/-
Model of the constructors and accessors of the individual parameters, one Go file each under
`messages/params/`. Accessors are modelled on a non-nil receiver.
-/

namespace M3
namespace Param

/-- `NewAspIdentifier`, `asp-identifier.go:9-11`. -/
def newAspIdentifier (v : UInt32) : Param := newUint32Val Tag.aspIdentifier v
/-- `(*Param).AspIdentifier`, `asp-identifier.go:14-19`. -/
def aspIdentifier (p : Param) : Res UInt32 :=
  if p.tag ≠ Tag.aspIdentifier then .ok 0 else p.decodeUint32Val

/-- `NewTrafficModeType`, `traffic-mode-type.go:17-19`. -/
def newTrafficModeType (v : UInt32) : Param := newUint32Val Tag.trafficModeType v
/-- `(*Param).TrafficModeType`, `traffic-mode-type.go:22-28`. -/
def trafficModeType (p : Param) : Res UInt32 :=
  if p.tag ≠ Tag.trafficModeType then .ok 0 else p.decodeUint32Val

/-- `NewNetworkAppearance`, `network-appearance.go:9-11`. -/
def newNetworkAppearance (v : UInt32) : Param := newUint32Val Tag.networkAppearance v
/-- `(*Param).NetworkAppearance`, `network-appearance.go:14-19`. -/
def networkAppearance (p : Param) : Res UInt32 :=
  if p.tag ≠ Tag.networkAppearance then .ok 0 else p.decodeUint32Val

/-- `NewCorrelationID`, `correlation-id.go:9-11`. -/
def newCorrelationID (v : UInt32) : Param := newUint32Val Tag.correlationID v
/-- `(*Param).CorrelationID`, `correlation-id.go:14-19`. -/
def correlationID (p : Param) : Res UInt32 :=
  if p.tag ≠ Tag.correlationID then .ok 0 else p.decodeUint32Val

/-- `NewErrorCode`, `error-code.go:40-42`. -/
def newErrorCode (v : UInt32) : Param := newUint32Val Tag.errorCode v
/-- `(*Param).ErrorCode`, `error-code.go:45-50`. -/
def errorCode (p : Param) : Res UInt32 :=
  if p.tag ≠ Tag.errorCode then .ok 0 else p.decodeUint32Val

/-- `NewStatus`, `status.go:33-35`. -/
def newStatus (v : UInt32) : Param := newUint32Val Tag.status v
/-- `(*Param).Status`, `status.go:38-44`. -/
def status (p : Param) : Res UInt32 :=
  if p.tag ≠ Tag.status then .ok 0 else p.decodeUint32Val
/-- `(*Param).StatusType`, `status.go:47-53`. -/
def statusType (p : Param) : Res UInt16 :=
  if p.tag ≠ Tag.status then .ok 0 else do
    let v ← p.decodeUint32Val
    return (v >>> 16).toUInt16
/-- `(*Param).StatusInfo`, `status.go:56-62`. -/
def statusInfo (p : Param) : Res UInt16 :=
  if p.tag ≠ Tag.status then .ok 0 else do
    let v ← p.decodeUint32Val
    return (v &&& 0xffff).toUInt16

/-- `NewLocalRoutingKeyIdentifier`, `local-rk-identifier.go:9-11`. -/
def newLocalRoutingKeyIdentifier (v : UInt32) : Param := newUint32Val Tag.localRoutingKeyIdentifier v
/-- `(*Param).LocalRoutingKeyIdentifier`, `local-rk-identifier.go:14-19`. -/
def localRoutingKeyIdentifier (p : Param) : Res UInt32 :=
  if p.tag ≠ Tag.localRoutingKeyIdentifier then .ok 0 else p.decodeUint32Val

/-- `NewRegistrationStatus`, `registration-status.go:26-28`. -/
def newRegistrationStatus (v : UInt32) : Param := newUint32Val Tag.registrationStatus v
/-- `(*Param).RegistrationStatus`, `registration-status.go:31-37`. -/
def registrationStatus (p : Param) : Res UInt32 :=
  if p.tag ≠ Tag.registrationStatus then .ok 0 else p.decodeUint32Val

/-- `NewDeregistrationStatus`, `deregistration-status.go:19-21`. -/
def newDeregistrationStatus (v : UInt32) : Param := newUint32Val Tag.deregistrationStatus v
/-- `(*Param).DeregistrationStatus`, `deregistration-status.go:24-29`. -/
def deregistrationStatus (p : Param) : Res UInt32 :=
  if p.tag ≠ Tag.deregistrationStatus then .ok 0 else p.decodeUint32Val

/-- `NewUserCause`, `user-cause.go:32-35`. -/
def newUserCause (user cause : UInt16) : Param :=
  let comb := (cause.toUInt32 <<< 16) ||| user.toUInt32
  newUint32Val Tag.userCause comb
/-- `(*Param).UserCause`, `user-cause.go:38-44`. -/
def userCause (p : Param) : Res UInt32 :=
  if p.tag ≠ Tag.userCause then .ok 0 else p.decodeUint32Val
/-- `(*Param).UserIdentity`, `user-cause.go:47-53`. -/
def userIdentity (p : Param) : Res UInt16 :=
  if p.tag ≠ Tag.userCause then .ok 0 else do
    let v ← p.decodeUint32Val
    return (v &&& 0xffff).toUInt16
/-- `(*Param).UnavailabilityCause`, `user-cause.go:56-62`. -/
def unavailabilityCause (p : Param) : Res UInt16 :=
  if p.tag ≠ Tag.userCause then .ok 0 else do
    let v ← p.decodeUint32Val
    return (v >>> 16).toUInt16

/-- `NewDestinationPointCode`, `destination-pointcode.go:9-11`. -/
def newDestinationPointCode (v : UInt32) : Param := newUint24Val Tag.destinationPointCode v
/-- `(*Param).DestinationPointCode`, `destination-pointcode.go:14-19`. -/
def destinationPointCode (p : Param) : Res UInt32 :=
  if p.tag ≠ Tag.destinationPointCode then .ok 0 else do
    let v ← p.decodeUint32Val
    return v &&& 0xffffff

/-- `NewConcernedDestination`, `concerned-destination.go:9-11`. -/
def newConcernedDestination (v : UInt32) : Param := newUint24Val Tag.concernedDestination v
/-- `(*Param).ConcernedDestination`, `concerned-destination.go:14-19`. -/
def concernedDestination (p : Param) : Res UInt32 :=
  if p.tag ≠ Tag.concernedDestination then .ok 0 else do
    let v ← p.decodeUint32Val
    return v &&& 0xffffff

/-- `NewCongestionIndications`, `congestion-indications.go:9-11`. -/
def newCongestionIndications (v : UInt8) : Param := newUint8Val Tag.congestionIndications v
/-- `(*Param).CongestionLevel`, `congestion-indications.go:14-19`. -/
def congestionLevel (p : Param) : Res UInt32 :=
  if p.tag ≠ Tag.congestionIndications then .ok 0 else do
    let v ← p.decodeUint32Val
    return v &&& 0xff

/-- `NewRoutingContext`, `routing-context.go:10-12`. -/
def newRoutingContext (vs : List UInt32) : Param := newMultiUint32Val Tag.routingContext vs
/-- `(*Param).RoutingContexts`, `routing-context.go:24-30`. -/
def routingContexts (p : Param) : Res (List UInt32) :=
  if p.tag ≠ Tag.routingContext then .ok [] else p.decodeMultiUint32Val
/-- `(*Param).RoutingContext`, `routing-context.go:15-21`; indexing `[0]` panics on an empty list. -/
def routingContext (p : Param) : Res UInt32 :=
  if p.tag ≠ Tag.routingContext then .ok 0 else do
    let l ← p.routingContexts
    rindex l 0

/-- `NewAffectedPointCode`, `affected-pointcode.go:12-14`. -/
def newAffectedPointCode (vs : List UInt32) : Param := newMultiUint32Val Tag.affectedPointCode vs
/-- `(*Param).AffectedPointCodes`, `affected-pointcode.go:25-30`. -/
def affectedPointCodes (p : Param) : Res (List UInt32) :=
  if p.tag ≠ Tag.affectedPointCode then .ok [] else p.decodeMultiUint32Val
/-- `(*Param).AffectedPointCode`, `affected-pointcode.go:17-22`. -/
def affectedPointCode (p : Param) : Res UInt32 :=
  if p.tag ≠ Tag.affectedPointCode then .ok 0 else do
    let l ← p.affectedPointCodes
    rindex l 0

/-- `NewOriginatingPointCodeList`, `originating-point-code-list.go:12-14`. -/
def newOriginatingPointCodeList (vs : List UInt32) : Param :=
  newMultiUint32Val Tag.originatingPointCodeList vs
/-- `(*Param).OriginatingPointCodeList`, `originating-point-code-list.go:17-22`. -/
def originatingPointCodeList (p : Param) : Res (List UInt32) :=
  if p.tag ≠ Tag.originatingPointCodeList then .ok [] else p.decodeMultiUint32Val

/-- `NewServiceIndicators`, `service-indicators.go:9-11`. -/
def newServiceIndicators (vs : Bytes) : Param := newMultiUint8Val Tag.serviceIndicators vs
/-- `(*Param).ServiceIndicators`, `service-indicators.go:14-20`. -/
def serviceIndicators (p : Param) : Res Bytes :=
  if p.tag ≠ Tag.serviceIndicators then .ok [] else .ok p.data

/-- `NewInfoString`, `info-string.go:9-11`; the Go string is its bytes. -/
def newInfoString (s : Bytes) : Param := newVariableLenVal Tag.infoString s
/-- `(*Param).InfoString`, `info-string.go:14-19`. -/
def infoString (p : Param) : Res Bytes :=
  if p.tag ≠ Tag.infoString then .ok [] else .ok p.data

/-- `NewHeartbeatData`, `heartbeat-data.go:9-11`. -/
def newHeartbeatData (d : Bytes) : Param := newVariableLenVal Tag.heartbeatData d
/-- `(*Param).HeartbeatData`, `heartbeat-data.go:14-19`. -/
def heartbeatData (p : Param) : Res Bytes :=
  if p.tag ≠ Tag.heartbeatData then .ok [] else .ok p.data

/-- `NewDiagnosticInformation`, `diagnostic-information.go:9-11`. -/
def newDiagnosticInformation (d : Bytes) : Param := newVariableLenVal Tag.diagnosticInformation d
/-- `(*Param).DiagnosticInformation`, `diagnostic-information.go:14-19`. -/
def diagnosticInformation (p : Param) : Res Bytes :=
  if p.tag ≠ Tag.diagnosticInformation then .ok [] else .ok p.data

end Param

/-- `ProtocolDataPayload`, `protocol-data.go:32-40`. -/
structure ProtocolDataPayload where
  originatingPointCode : UInt32
  destinationPointCode : UInt32
  serviceIndicator : UInt8
  networkIndicator : UInt8
  messagePriority : UInt8
  signalingLinkSelection : UInt8
  data : Bytes
  deriving DecidableEq, Repr

namespace ProtocolDataPayload

/-- `(*ProtocolDataPayload).MarshalLen`, `protocol-data.go:132-134`. -/
def marshalLen (p : ProtocolDataPayload) : Nat := 12 + p.data.length

/-- `(*ProtocolDataPayload).MarshalTo`, `protocol-data.go:90-103`. -/
def marshalTo (p : ProtocolDataPayload) (b : Slice) : Res Bytes := do
  if b.len < p.marshalLen then .err .paramTooShortToMarshal else
  let m ← putUint32 (← b.sub 0 4) p.originatingPointCode
  let b := { b with mem := m }
  let m ← putUint32 (← b.sub 4 8) p.destinationPointCode
  let b := { b with mem := m }
  let m ← b.set 8 p.serviceIndicator
  let b := { b with mem := m }
  let m ← b.set 9 p.networkIndicator
  let b := { b with mem := m }
  let m ← b.set 10 p.messagePriority
  let b := { b with mem := m }
  let m ← b.set 11 p.signalingLinkSelection
  let b := { b with mem := m }
  let s ← b.sub 12 p.marshalLen
  return s.copy p.data

/-- `(*ProtocolDataPayload).MarshalBinary`, `protocol-data.go:81-87`. -/
def marshalBinary (p : ProtocolDataPayload) : Res Bytes := do
  let b := Slice.make p.marshalLen
  let m ← p.marshalTo b
  return { b with mem := m }.bytes

/-- `ParseProtocolDataPayload` / `UnmarshalBinary`, `protocol-data.go:106-129`. -/
def parse (b : Bytes) : Res ProtocolDataPayload := do
  if b.length < 12 then .err .paramTooShortToParse else
  let opc ← getUint32 (← rsub b 0 4)
  let dpc ← getUint32 (← rsub b 4 8)
  let si ← rindex b 8
  let ni ← rindex b 9
  let mp ← rindex b 10
  let sls ← rindex b 11
  let d ← rfrom b 12
  return ⟨opc, dpc, si, ni, mp, sls, d⟩

end ProtocolDataPayload

namespace Param

/-- `NewProtocolData`, `protocol-data.go:60-69`; the ignored `MarshalBinary` error leaves `pd` nil. -/
def newProtocolData (opc dpc : UInt32) (si ni mp sls : UInt8) (data : Bytes) : Res Param :=
  match ProtocolDataPayload.marshalBinary ⟨opc, dpc, si, ni, mp, sls, data⟩ with
  | .ok pd => .ok (setLength { tag := Tag.protocolData, length := 0, data := pd })
  | .err _ => .ok (setLength { tag := Tag.protocolData, length := 0, data := [] })
  | .panic => .panic
  | .diverge => .diverge

/-- `(*Param).ProtocolData`, `protocol-data.go:72-78`. -/
def protocolData (p : Param) : Res ProtocolDataPayload :=
  if p.tag ≠ Tag.protocolData then .err .paramInvalidType else ProtocolDataPayload.parse p.data

end Param

/-- `RoutingKeyPayload`, `routing-key.go:10-12`. -/
structure RoutingKeyPayload where
  localRoutingKeyIdentifier : Option Param
  routingContext : Option Param
  trafficModeType : Option Param
  destinationPointCode : Option Param
  networkAppearance : Option Param
  serviceIndicators : Option Param
  originatingPointCodeList : Option Param
  deriving DecidableEq, Repr

namespace RoutingKeyPayload

/-- One iteration of the switch in `UnmarshalBinary`, `routing-key.go:77-94`. -/
def setParam (r : RoutingKeyPayload) (p : Param) : Res RoutingKeyPayload :=
  if p.tag = Tag.localRoutingKeyIdentifier then .ok { r with localRoutingKeyIdentifier := some p }
  else if p.tag = Tag.routingContext then .ok { r with routingContext := some p }
  else if p.tag = Tag.trafficModeType then .ok { r with trafficModeType := some p }
  else if p.tag = Tag.destinationPointCode then .ok { r with destinationPointCode := some p }
  else if p.tag = Tag.networkAppearance then .ok { r with networkAppearance := some p }
  else if p.tag = Tag.serviceIndicators then .ok { r with serviceIndicators := some p }
  else if p.tag = Tag.originatingPointCodeList then .ok { r with originatingPointCodeList := some p }
  else .err .paramInvalidType

/-- The `for range` loop of `UnmarshalBinary`, `routing-key.go:76-95`. -/
def setParams (r : RoutingKeyPayload) : List Param → Res RoutingKeyPayload
  | [] => .ok r
  | p :: ps => do
    let r ← r.setParam p
    r.setParams ps

/-- `(*RoutingKeyPayload).UnmarshalBinary`, `routing-key.go:67-97`. -/
def unmarshalBinary (r : RoutingKeyPayload) (b : Bytes) : Res RoutingKeyPayload := do
  let ps ← parseMultiParams b
  if ps.length < 3 then .err .paramInvalidLength else r.setParams ps

/-- `ParseRoutingKeyPayload`, `routing-key.go:58-64`. -/
def parse (b : Bytes) : Res RoutingKeyPayload :=
  unmarshalBinary ⟨none, none, none, none, none, none, none⟩ b

end RoutingKeyPayload

/-- `RegistrationResultPayload`, `registration-result.go:10-12`. -/
structure RegistrationResultPayload where
  localRoutingKeyIdentifier : Option Param
  registrationStatus : Option Param
  routingContext : Option Param
  deriving DecidableEq, Repr

namespace RegistrationResultPayload

/-- `(*RegistrationResultPayload).UnmarshalBinary`, `registration-result.go:57-71`. -/
def unmarshalBinary (_d : RegistrationResultPayload) (b : Bytes) : Res RegistrationResultPayload := do
  let ps ← parseMultiParams b
  if ps.length ≠ 3 then .err .paramInvalidLength else
  let p0 ← rindex ps 0
  let p1 ← rindex ps 1
  let p2 ← rindex ps 2
  return ⟨some p0, some p1, some p2⟩

/-- `ParseRegistrationResultPayload`, `registration-result.go:48-54`. -/
def parse (b : Bytes) : Res RegistrationResultPayload := unmarshalBinary ⟨none, none, none⟩ b

end RegistrationResultPayload

/-- `DeregResultPayload`, `deregistration-result.go:10-12`. -/
structure DeregResultPayload where
  routingContext : Option Param
  deregistrationStatus : Option Param
  deriving DecidableEq, Repr

namespace DeregResultPayload

/-- One iteration of the switch in `UnmarshalBinary`, `deregistration-result.go:65-70`: other tags
are ignored. -/
def setParam (d : DeregResultPayload) (p : Param) : DeregResultPayload :=
  if p.tag = Tag.routingContext then { d with routingContext := some p }
  else if p.tag = Tag.deregistrationStatus then { d with deregistrationStatus := some p }
  else d

/-- `(*DeregResultPayload).UnmarshalBinary`, `deregistration-result.go:55-73`. -/
def unmarshalBinary (d : DeregResultPayload) (b : Bytes) : Res DeregResultPayload := do
  let ps ← parseMultiParams b
  if ps.length ≠ 2 then .err .paramInvalidLength else
  return ps.foldl setParam d

/-- `ParseDeregResultPayload`, `deregistration-result.go:46-52`. -/
def parse (b : Bytes) : Res DeregResultPayload := unmarshalBinary ⟨none, none⟩ b

end DeregResultPayload

namespace Param

/-- `NewRoutingKey`, `routing-key.go:31-42`. -/
def newRoutingKey (rk : RoutingKeyPayload) : Res Param :=
  newNested Tag.routingKey [rk.localRoutingKeyIdentifier, rk.routingContext, rk.trafficModeType,
    rk.destinationPointCode, rk.networkAppearance, rk.serviceIndicators, rk.originatingPointCodeList]

/-- `(*Param).RoutingKey`, `routing-key.go:45-55`. -/
def routingKey (p : Param) : Res RoutingKeyPayload :=
  if p.tag ≠ Tag.routingKey then .err .paramInvalidType else RoutingKeyPayload.parse p.data

/-- `NewRegistrationResult`, `registration-result.go:25-32`. -/
def newRegistrationResult (rr : RegistrationResultPayload) : Res Param :=
  newNested Tag.registrationResult
    [rr.localRoutingKeyIdentifier, rr.registrationStatus, rr.routingContext]

/-- `(*Param).RegistrationResult`, `registration-result.go:35-45`. -/
def registrationResult (p : Param) : Res RegistrationResultPayload :=
  if p.tag ≠ Tag.registrationResult then .err .paramInvalidType
  else RegistrationResultPayload.parse p.data

/-- `NewDeregistrationResult`, `deregistration-result.go:24-30`. -/
def newDeregistrationResult (dr : DeregResultPayload) : Res Param :=
  newNested Tag.deregistrationResult [dr.routingContext, dr.deregistrationStatus]

/-- `(*Param).DeregistrationResult`, `deregistration-result.go:33-43`. -/
def deregistrationResult (p : Param) : Res DeregResultPayload :=
  if p.tag ≠ Tag.deregistrationResult then .err .paramInvalidType
  else DeregResultPayload.parse p.data

end Param

end M3
