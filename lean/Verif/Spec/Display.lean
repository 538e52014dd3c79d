import Verif.Spec.Table

/-
Specification: how a message is shown in logs. Labels are the field names of the exported structs.
-/

set_option autoImplicit false

namespace M3.Spec

/-- Label of a parameter. (The library writes no colon after `ProtocolData`.) -/
def PName.label : PName → String
  | .infoString => "InfoString:"
  | .routingContext => "RoutingContext:"
  | .diagnosticInformation => "DiagnosticInformation:"
  | .heartbeatData => "HeartbeatData:"
  | .trafficModeType => "TrafficModeType:"
  | .errorCode => "ErrorCode:"
  | .status => "Status:"
  | .aspIdentifier => "AspIdentifier:"
  | .affectedPointCode => "AffectedPointCode:"
  | .correlationID => "CorrelationID:"
  | .networkAppearance => "NetworkAppearance:"
  | .userCause => "UserCause:"
  | .congestionIndications => "CongestionIndications:"
  | .concernedDestination => "ConcernedDestination:"
  | .routingKey => "RoutingKey:"
  | .registrationResult => "RegistrationResult:"
  | .deregistrationResult => "DeregistrationResult:"
  | .localRoutingKeyIdentifier => "LocalRoutingKeyIdentifier:"
  | .destinationPointCode => "DestinationPointCode:"
  | .serviceIndicators => "ServiceIndicators:"
  | .originatingPointCodeList => "OriginatingPointCodeList:"
  | .protocolData => "ProtocolData"
  | .registrationStatus => "RegistrationStatus:"
  | .deregistrationStatus => "DeregistrationStatus:"

/-- Labelled values in braces, separated by commas: `{A: x, B: y}`. -/
def braces (l : List (String × String)) : List Char :=
  "{".toList ++ ((l.map fun f => f.1.toList ++ " ".toList ++ f.2.toList).intersperse ", ".toList).flatten ++ "}".toList

/-- The value of a hexadecimal digit. -/
def hexDigit (c : Char) : Option Nat := "0123456789abcdef".toList.idxOf? c

/-- The bytes written as pairs of hexadecimal digits. -/
def unhex : List Char → Option (List UInt8)
  | [] => some []
  | [_] => none
  | c :: d :: l => match hexDigit c, hexDigit d, unhex l with
    | some h, some k, some r => some (UInt8.ofNat (16 * h + k) :: r)
    | _, _, _ => none

/-- Messages whose printed form is that of their header. -/
def Kind.terse : Kind → Bool
  | .duna | .dava | .daud | .dupu | .drst => true
  | _ => false

end M3.Spec
