import Verif.Model.ParamKinds

/-
Model of the payload structures of package `params` as variables: `UnmarshalBinary` is a method of a pointer to a structure that may already hold
something, and what it leaves there when it fails is seen by the caller. The functions of `ParamKinds.lean` return the new value or an error; here both
are returned.
-/

set_option autoImplicit false

namespace M3

/-- `(*ProtocolDataPayload).UnmarshalBinary`, `protocol-data.go:115-129`: the variable after the call, and the error. -/
def ProtocolDataPayload.unmarshalKept (b : Bytes) (p : ProtocolDataPayload) : ProtocolDataPayload × Res Unit :=
  if b.length < 12 then (p, .err .paramTooShortToParse) else
  match (do
    let opc ← getUint32 (← rsub b 0 4)
    let dpc ← getUint32 (← rsub b 4 8)
    return (opc, dpc, ← rindex b 8, ← rindex b 9, ← rindex b 10, ← rindex b 11, ← rfrom b 12) : Res (UInt32 × UInt32 × UInt8 × UInt8 × UInt8 × UInt8 × Bytes)) with
  | .ok (opc, dpc, si, ni, mp, sls, d) =>
    ({ p with originatingPointCode := opc, destinationPointCode := dpc, serviceIndicator := si, networkIndicator := ni, messagePriority := mp,
              signalingLinkSelection := sls, data := d }, .ok ())
  | _ => (p, .panic)

/-- The loop of `(*RoutingKeyPayload).UnmarshalBinary`, `routing-key.go:76-96`: members are stored one after the other, until one does not belong there. -/
def RoutingKeyPayload.storeParams (r : RoutingKeyPayload) : List Param → RoutingKeyPayload × Res Unit
  | [] => (r, .ok ())
  | p :: ps =>
    if p.tag = Tag.localRoutingKeyIdentifier then storeParams { r with localRoutingKeyIdentifier := some p } ps
    else if p.tag = Tag.routingContext then storeParams { r with routingContext := some p } ps
    else if p.tag = Tag.trafficModeType then storeParams { r with trafficModeType := some p } ps
    else if p.tag = Tag.destinationPointCode then storeParams { r with destinationPointCode := some p } ps
    else if p.tag = Tag.networkAppearance then storeParams { r with networkAppearance := some p } ps
    else if p.tag = Tag.serviceIndicators then storeParams { r with serviceIndicators := some p } ps
    else if p.tag = Tag.originatingPointCodeList then storeParams { r with originatingPointCodeList := some p } ps
    else (r, .err .paramInvalidType)

/-- `(*RoutingKeyPayload).UnmarshalBinary`, `routing-key.go:67-97`: the variable after the call, and the error. -/
def RoutingKeyPayload.unmarshalKept (b : Bytes) (r : RoutingKeyPayload) : RoutingKeyPayload × Res Unit :=
  match parseMultiParams b with
  | .ok ps => if ps.length < 3 then (r, .err .paramInvalidLength) else r.storeParams ps
  | .err e => (r, .err e)
  | .panic => (r, .panic)
  | .diverge => (r, .diverge)

/-- `(*RegistrationResultPayload).UnmarshalBinary`, `registration-result.go:57-71`: the variable after the call, and the error. -/
def RegistrationResultPayload.unmarshalKept (b : Bytes) (d : RegistrationResultPayload) : RegistrationResultPayload × Res Unit :=
  match parseMultiParams b with
  | .ok ps => if ps.length ≠ 3 then (d, .err .paramInvalidLength) else
    match rindex ps 0, rindex ps 1, rindex ps 2 with
    | .ok p0, .ok p1, .ok p2 => ({ d with localRoutingKeyIdentifier := some p0, registrationStatus := some p1, routingContext := some p2 }, .ok ())
    | _, _, _ => (d, .panic)
  | .err e => (d, .err e)
  | .panic => (d, .panic)
  | .diverge => (d, .diverge)

/-- `(*DeregResultPayload).UnmarshalBinary`, `deregistration-result.go:55-73`: the variable after the call, and the error. -/
def DeregResultPayload.unmarshalKept (b : Bytes) (d : DeregResultPayload) : DeregResultPayload × Res Unit :=
  match parseMultiParams b with
  | .ok ps => if ps.length ≠ 2 then (d, .err .paramInvalidLength) else (ps.foldl setParam d, .ok ())
  | .err e => (d, .err e)
  | .panic => (d, .panic)
  | .diverge => (d, .diverge)

end M3
