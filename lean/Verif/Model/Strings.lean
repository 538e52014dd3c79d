import Verif.Model.Message
import Verif.Model.ParamKinds

/- The `String` methods of headers, parameters, payloads and messages. -/

set_option autoImplicit false

namespace M3

/-- The result of `fmt.Sprintf`: literal parts of the format and formatted arguments in turn. -/
def sprintf : List String → String
  | [] => ""
  | s :: l => s ++ sprintf l

/-! The verbs of `fmt.Sprintf` that occur. `%s` of a string is the string. -/

/-- `%d` of an unsigned integer: decimal, without leading zeros. -/
def fmtD (n : Nat) : String := String.ofList (Nat.toDigits 10 n)

/-- `%#x` of an unsigned integer: `0x` and lower-case hexadecimal, without leading zeros. -/
def fmtSharpX (n : Nat) : String := "0x" ++ String.ofList (Nat.toDigits 16 n)

/-- `%x` of a byte slice: two lower-case hexadecimal digits per byte. -/
def fmtX (b : Bytes) : String :=
  String.ofList (b.flatMap fun x => [Nat.digitChar (x.toNat / 16), Nat.digitChar (x.toNat % 16)])

/-- `%s` of a `[]string`: the members separated by blanks, in brackets. -/
def fmtStrings (l : List String) : String :=
  "[" ++ String.ofList ((l.map String.toList).intersperse [' ']).flatten ++ "]"

/-- `(*Header).String`, `messages/header.go:100-109`. -/
def Header.goString (h : Header) : String :=
  sprintf ["{Version: ", fmtD h.version.toNat, ", Reserved: ", fmtSharpX h.reserved.toNat, ", Class: ",
    fmtD h.cls.toNat, ", Type: ", fmtD h.typ.toNat, ", Length: ", fmtD h.length.toNat, ", Payload: ",
    fmtX h.payload, "}"]

/-- `(*Param).String`, `messages/params/params.go:253-262`; `none` is the nil pointer. -/
def paramGoString : Option Param → String
  | none => ""
  | some p => sprintf ["{Tag: ", fmtD p.tag.toNat, ", Length: ", fmtD p.length.toNat, ", Data: ", fmtX p.data, "}"]

/-- `(*ProtocolDataPayload).String`, `messages/params/protocol-data.go:137-147`. -/
def ProtocolDataPayload.goString (p : ProtocolDataPayload) : String :=
  sprintf ["{OriginatingPointCode: ", fmtD p.originatingPointCode.toNat, ", DestinationPointCode: ",
    fmtD p.destinationPointCode.toNat, ", ServiceIndicator: ", fmtD p.serviceIndicator.toNat,
    ", NetworkIndicator: ", fmtD p.networkIndicator.toNat, ", MessagePriority: ", fmtD p.messagePriority.toNat,
    ", SignalingLinkSelection: ", fmtD p.signalingLinkSelection.toNat, ", Data: ", fmtX p.data, "}"]

namespace Msg

/-- `(*Error).String`, `messages/error.go:184-193`. -/
def Error.goString (m : Error) : String :=
  sprintf ["{Header: ", m.header.goString, ", ErrorCode: ", paramGoString m.errorCode, ", RoutingContext: ",
    paramGoString m.routingContext, ", NetworkAppearance: ", paramGoString m.networkAppearance,
    ", AffectedPointCode: ", paramGoString m.affectedPointCode, ", DiagnosticInformation: ",
    paramGoString m.diagnosticInformation, "}"]

/-- `(*Notify).String`, `messages/notify.go:176-184`. -/
def Notify.goString (m : Notify) : String :=
  sprintf ["{Header: ", m.header.goString, ", Status: ", paramGoString m.status, ", AspIdentifier: ",
    paramGoString m.aspIdentifier, ", RoutingContext: ", paramGoString m.routingContext, ", InfoString: ",
    paramGoString m.infoString, "}"]

/-- `(*Data).String`, `messages/data.go:167-175`. The format has no colon after `ProtocolData`. -/
def Data.goString (m : Data) : String :=
  sprintf ["{Header: ", m.header.goString, ", NetworkAppearance: ", paramGoString m.networkAppearance,
    ", RoutingContext: ", paramGoString m.routingContext, ", ProtocolData ", paramGoString m.protocolData,
    ", CorrelationID: ", paramGoString m.correlationID, "}"]

/-- `(*SignallingCongestion).String`, `messages/scon.go:195-205`. -/
def SignallingCongestion.goString (m : SignallingCongestion) : String :=
  sprintf ["{Header: ", m.header.goString, ", NetworkAppearance: ", paramGoString m.networkAppearance,
    ", RoutingContext: ", paramGoString m.routingContext, ", AffectedPointCode: ",
    paramGoString m.affectedPointCode, ", ConcernedDestination: ", paramGoString m.concernedDestination,
    ", CongestionIndications: ", paramGoString m.congestionIndications, ", InfoString: ",
    paramGoString m.infoString, "}"]

/-- `(*AspUp).String`, `messages/asp-up.go:133-139`. -/
def AspUp.goString (m : AspUp) : String :=
  sprintf ["{Header: ", m.header.goString, ", AspIdentifier: ", paramGoString m.aspIdentifier,
    ", InfoString: ", paramGoString m.infoString, "}"]

/-- `(*AspDown).String`, `messages/asp-down.go:116-121`. -/
def AspDown.goString (m : AspDown) : String :=
  sprintf ["{Header: ", m.header.goString, ", InfoString: ", paramGoString m.infoString, "}"]

/-- `(*Heartbeat).String`, `messages/heartbeat.go:116-121`. -/
def Heartbeat.goString (m : Heartbeat) : String :=
  sprintf ["{Header: ", m.header.goString, ", HeartbeatData: ", paramGoString m.heartbeatData, "}"]

/-- `(*AspUpAck).String`, `messages/asp-up-ack.go:133-139`. -/
def AspUpAck.goString (m : AspUpAck) : String :=
  sprintf ["{Header: ", m.header.goString, ", AspIdentifier: ", paramGoString m.aspIdentifier,
    ", InfoString: ", paramGoString m.infoString, "}"]

/-- `(*AspDownAck).String`, `messages/asp-down-ack.go:116-121`. -/
def AspDownAck.goString (m : AspDownAck) : String :=
  sprintf ["{Header: ", m.header.goString, ", InfoString: ", paramGoString m.infoString, "}"]

/-- `(*HeartbeatAck).String`, `messages/heartbeat-ack.go:116-121`. -/
def HeartbeatAck.goString (m : HeartbeatAck) : String :=
  sprintf ["{Header: ", m.header.goString, ", HeartbeatData: ", paramGoString m.heartbeatData, "}"]

/-- `(*AspActive).String`, `messages/asp-active.go:150-157`. -/
def AspActive.goString (m : AspActive) : String :=
  sprintf ["{Header: ", m.header.goString, ", TrafficModeType: ", paramGoString m.trafficModeType,
    ", RoutingContext: ", paramGoString m.routingContext, ", InfoString: ", paramGoString m.infoString, "}"]

/-- `(*AspInactive).String`, `messages/asp-inactive.go:133-139`. -/
def AspInactive.goString (m : AspInactive) : String :=
  sprintf ["{Header: ", m.header.goString, ", RoutingContext: ", paramGoString m.routingContext,
    ", InfoString: ", paramGoString m.infoString, "}"]

/-- `(*AspActiveAck).String`, `messages/asp-active-ack.go:150-157`. -/
def AspActiveAck.goString (m : AspActiveAck) : String :=
  sprintf ["{Header: ", m.header.goString, ", TrafficModeType: ", paramGoString m.trafficModeType,
    ", RoutingContext: ", paramGoString m.routingContext, ", InfoString: ", paramGoString m.infoString, "}"]

/-- `(*AspInactiveAck).String`, `messages/asp-inactive-ack.go:133-139`. -/
def AspInactiveAck.goString (m : AspInactiveAck) : String :=
  sprintf ["{Header: ", m.header.goString, ", RoutingContext: ", paramGoString m.routingContext,
    ", InfoString: ", paramGoString m.infoString, "}"]

/-- `(*Generic).String`, `messages/generic.go:111-121`. -/
def Generic.goString (m : Generic) : String :=
  sprintf ["{Header: ", m.header.goString, ", Params: ",
    fmtStrings (m.params.map fun p => paramGoString (some p)), "}"]

end Msg

/-- What `fmt` prints for a message: the method `String` of its dynamic type. `DestinationUnavailable`,
`DestinationAvailable`, `DestinationStateAudit`, `DestinationUserPartUnavailable` and
`DestinationRestricted` declare none; they have the one promoted from the embedded `*Header`
(`duna.go:17-18`, `dava.go:17-18`, `daud.go:17-18`, `dupu.go:16-17`, `drst.go:17-18`). -/
def M3UA.goString : M3UA → String
  | .error m => m.goString
  | .notify m => m.goString
  | .data m => m.goString
  | .duna m => m.header.goString
  | .dava m => m.header.goString
  | .daud m => m.header.goString
  | .scon m => m.goString
  | .dupu m => m.header.goString
  | .drst m => m.header.goString
  | .aspUp m => m.goString
  | .aspDown m => m.goString
  | .heartbeat m => m.goString
  | .aspUpAck m => m.goString
  | .aspDownAck m => m.goString
  | .heartbeatAck m => m.goString
  | .aspActive m => m.goString
  | .aspInactive m => m.goString
  | .aspActiveAck m => m.goString
  | .aspInactiveAck m => m.goString
  | .generic m => m.goString

end M3
