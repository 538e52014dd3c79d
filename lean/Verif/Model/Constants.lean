/- The exported constants of package `params` that a user passes to constructors or compares accessors with. -/

set_option autoImplicit false

namespace M3

/-- A `const ( … )` block: the value as a function of `iota`, and the names line by line (`_` is `none`). -/
structure ConstBlock where
  value : Nat → Nat
  names : List (Option String)

/-- The value the block gives to a name. -/
def ConstBlock.get (b : ConstBlock) (n : String) : Option Nat := (b.names.findIdx? (· == some n)).map b.value

namespace Const

/-- `messages/params/traffic-mode-type.go:8-13`. -/
def trafficMode : ConstBlock :=
  ⟨fun iota => iota,
   [none, some "TrafficModeOverride", some "TrafficModeLoadshare", some "TrafficModeBroadcast"]⟩

/-- `messages/params/error-code.go:8-36`. -/
def errorCode : ConstBlock :=
  ⟨fun iota => iota,
   [none, some "InvalidVersionError", none, some "UnsupportedMessageErrorClass",
    some "UnsupportedMessageErrorType", some "ErrUnsupportedTrafficModeType", some "UnexpectedMessageError",
    some "ErrProtocolError", none, some "ErrInvalidStreamIdentifier", none, none, none,
    some "ErrRefusedManagementBlocking", some "ErrAspIdentifierRequired", some "ErrInvalidAspIdentifier", none,
    some "ErrInvalidParameterValue", some "ErrParameterFieldError", some "ErrUnexpectedParameter",
    some "ErrDestinationStatusUnknown", some "ErrInvalidNetworkAppearance", some "ErrMissingParameter", none, none,
    some "ErrInvalidRoutingContext", some "ErrNoConfiguredAsForAsp"]⟩

/-- `messages/params/status.go:8-11`. -/
def statusType : ConstBlock :=
  ⟨fun iota => iota + 1,
   [some "AsStateChange", some "Other"]⟩

/-- `messages/params/status.go:15-20`. In Go `|` and `+` have the same precedence and associate to the left. -/
def asState : ConstBlock :=
  ⟨fun iota => ((0x01 <<< 16) ||| iota) + 1,
   [none, some "AsStateInactive", some "AsStateActive", some "AsStatePending"]⟩

/-- `messages/params/status.go:24-28`. In Go `|` and `+` have the same precedence and associate to the left. -/
def otherStatus : ConstBlock :=
  ⟨fun iota => ((0x02 <<< 16) ||| iota) + 1,
   [some "InsufficientAspResources", some "AlternateAspActive", some "AspFailure"]⟩

/-- `messages/params/user-cause.go:8-12`. -/
def unavailability : ConstBlock :=
  ⟨fun iota => iota,
   [some "UserIdentityUnknown", some "Unequipped", some "Inaccessible"]⟩

/-- `messages/params/user-cause.go:15-28`. -/
def mtp3User : ConstBlock :=
  ⟨fun iota => iota,
   [none, some "SCCP", some "TUP", some "ISUP", none, some "BroadbandISUP", some "SatelliteISUP", none,
    some "AAL2Signalling", some "BICC", some "GatewayControlProtocol", none]⟩

/-- `messages/params/registration-status.go:8-22`. -/
def registration : ConstBlock :=
  ⟨fun iota => iota,
   [some "SuccessfullyRegistered", some "RegistrationStatusUnknown", some "InvalidDPC",
    some "InvalidNetworkAppearance", some "InvalidRoutingKey", some "PermissionDenied",
    some "CannotSupportUniqueRouting", some "RoutingKeynotCurrentlyProvisioned", some "InsufficientResources",
    some "UnsupportedRKparameterField", some "UnsupportedTrafficHandlingMode", some "RoutingKeyChangeRefused",
    some "RoutingKeyAlreadyRegistered"]⟩

/-- `messages/params/deregistration-status.go:8-15`. -/
def deregistration : ConstBlock :=
  ⟨fun iota => iota,
   [some "SuccessfullyDeregistered", some "DeregStatusUnknown", some "DeregInvalidRoutingContext",
    some "DeregPermissionDenied", some "DeregNotRegistered", some "DeregASPActiveForRoutingContext"]⟩

/-- `messages/params/protocol-data.go:14-29`. -/
def serviceIndicator : ConstBlock :=
  ⟨fun iota => iota,
   [some "ServiceIndUnused", none, none, some "ServiceIndSCCP", some "ServiceIndTUP", some "ServiceIndISUP", none,
    some "ServiceIndBroadbandISUP", some "ServiceIndSatelliteISUP", none, some "ServiceIndAALType2Signalling",
    some "ServiceIndBICC", some "ServiceIndGatewayControlProtocol", none]⟩

end Const

end M3
