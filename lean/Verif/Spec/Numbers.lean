/- RFC 4666: numbers with a meaning inside parameters, and the names of messages. -/

set_option autoImplicit false

namespace M3.Spec

/-- Traffic mode types, RFC 4666, 3.7.1. -/
def trafficModes : List (String × Nat) :=
  [("TrafficModeOverride", 1), ("TrafficModeLoadshare", 2), ("TrafficModeBroadcast", 3)]

/-- Error codes, RFC 4666, 3.8.1. -/
def errorCodes : List (String × Nat) :=
  [("InvalidVersionError", 0x01), ("UnsupportedMessageErrorClass", 0x03), ("UnsupportedMessageErrorType", 0x04),
   ("ErrUnsupportedTrafficModeType", 0x05), ("UnexpectedMessageError", 0x06), ("ErrProtocolError", 0x07),
   ("ErrInvalidStreamIdentifier", 0x09), ("ErrRefusedManagementBlocking", 0x0d), ("ErrAspIdentifierRequired", 0x0e),
   ("ErrInvalidAspIdentifier", 0x0f), ("ErrInvalidParameterValue", 0x11), ("ErrParameterFieldError", 0x12),
   ("ErrUnexpectedParameter", 0x13), ("ErrDestinationStatusUnknown", 0x14), ("ErrInvalidNetworkAppearance", 0x15),
   ("ErrMissingParameter", 0x16), ("ErrInvalidRoutingContext", 0x19), ("ErrNoConfiguredAsForAsp", 0x1a)]

/-- Status types, RFC 4666, 3.8.2. -/
def statusTypes : List (String × Nat) := [("AsStateChange", 1), ("Other", 2)]

/-- Status type AS-State_Change (upper 16 bits) with its status information (lower 16 bits), RFC 4666, 3.8.2. -/
def asStates : List (String × Nat) :=
  [("AsStateInactive", 1 * 65536 + 2), ("AsStateActive", 1 * 65536 + 3), ("AsStatePending", 1 * 65536 + 4)]

/-- Status type Other with its status information. -/
def otherStatuses : List (String × Nat) :=
  [("InsufficientAspResources", 2 * 65536 + 1), ("AlternateAspActive", 2 * 65536 + 2), ("AspFailure", 2 * 65536 + 3)]

/-- Unavailability causes, RFC 4666, 3.4.5. -/
def causes : List (String × Nat) := [("UserIdentityUnknown", 0), ("Unequipped", 1), ("Inaccessible", 2)]

/-- MTP3-User identities, RFC 4666, 3.4.5. -/
def users : List (String × Nat) :=
  [("SCCP", 3), ("TUP", 4), ("ISUP", 5), ("BroadbandISUP", 9), ("SatelliteISUP", 10), ("AAL2Signalling", 12), ("BICC", 13),
   ("GatewayControlProtocol", 14)]

/-- Registration status, RFC 4666, 3.6.2. -/
def registrations : List (String × Nat) :=
  [("SuccessfullyRegistered", 0), ("RegistrationStatusUnknown", 1), ("InvalidDPC", 2), ("InvalidNetworkAppearance", 3),
   ("InvalidRoutingKey", 4), ("PermissionDenied", 5), ("CannotSupportUniqueRouting", 6),
   ("RoutingKeynotCurrentlyProvisioned", 7), ("InsufficientResources", 8), ("UnsupportedRKparameterField", 9),
   ("UnsupportedTrafficHandlingMode", 10), ("RoutingKeyChangeRefused", 11), ("RoutingKeyAlreadyRegistered", 12)]

/-- Deregistration status, RFC 4666, 3.6.4. -/
def deregistrations : List (String × Nat) :=
  [("SuccessfullyDeregistered", 0), ("DeregStatusUnknown", 1), ("DeregInvalidRoutingContext", 2), ("DeregPermissionDenied", 3),
   ("DeregNotRegistered", 4), ("DeregASPActiveForRoutingContext", 5)]

/-- Service indicators, RFC 4666, 3.3.1. -/
def serviceIndicators : List (String × Nat) :=
  [("ServiceIndSCCP", 3), ("ServiceIndTUP", 4), ("ServiceIndISUP", 5), ("ServiceIndBroadbandISUP", 9),
   ("ServiceIndSatelliteISUP", 10), ("ServiceIndAALType2Signalling", 12), ("ServiceIndBICC", 13),
   ("ServiceIndGatewayControlProtocol", 14)]

/-- Names of message classes, RFC 4666, 3.1.2. -/
def classNames : List (Nat × String) := [(0, "Management"), (1, "Transfer"), (2, "SSNM"), (3, "ASPSM"), (4, "ASPTM")]

/-- Names of messages by class and type, RFC 4666, 3.1.3 and the headings of 3.3 to 3.8. -/
def messageNames : List ((Nat × Nat) × String) :=
  [((0, 0), "Error"), ((0, 1), "Notify"), ((1, 1), "Payload Data"), ((2, 1), "Destination Unavailable"),
   ((2, 2), "Destination Available"), ((2, 3), "Destination State Audit"), ((2, 4), "Signalling Congestion"),
   ((2, 5), "Destination User Part Unavailable"), ((2, 6), "Destination Restricted"), ((3, 1), "ASP Up"), ((3, 2), "ASP Down"),
   ((3, 3), "Heartbeat"), ((3, 4), "ASP Up Ack"), ((3, 5), "ASP Down Ack"), ((3, 6), "Heartbeat Ack"), ((4, 1), "ASP Active"),
   ((4, 2), "ASP Inactive"), ((4, 3), "ASP Active Ack"), ((4, 4), "ASP Inactive Ack")]

/-- What a message with these class and type octets is called: class and message, or `Unknown` twice. -/
def called (c t : Nat) : String × String := match messageNames.lookup (c, t) with
  | some n => ((classNames.lookup c).getD "Unknown", n)
  | none => ("Unknown", "Unknown")

end M3.Spec
