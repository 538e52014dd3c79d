/-
Specification: numbers assigned by RFC 4666 (parameter tags 3.2; message classes and types 3.1.2-3.1.3)
and the parameters of each message in the order in which RFC 4666 lists them (3.3-3.8).
Written down from the RFC, without reference to the model.
-/

namespace M3.Spec

/-- Parameters of RFC 4666, 3.2. -/
inductive PName where
  | infoString | routingContext | diagnosticInformation | heartbeatData | trafficModeType
  | errorCode | status | aspIdentifier | affectedPointCode | correlationID
  | networkAppearance | userCause | congestionIndications | concernedDestination | routingKey
  | registrationResult | deregistrationResult | localRoutingKeyIdentifier | destinationPointCode
  | serviceIndicators | originatingPointCodeList | protocolData | registrationStatus
  | deregistrationStatus
  deriving DecidableEq, Repr

/-- Parameter tags, RFC 4666, 3.2. -/
def PName.tag : PName → Nat
  | .infoString => 0x0004
  | .routingContext => 0x0006
  | .diagnosticInformation => 0x0007
  | .heartbeatData => 0x0009
  | .trafficModeType => 0x000b
  | .errorCode => 0x000c
  | .status => 0x000d
  | .aspIdentifier => 0x0011
  | .affectedPointCode => 0x0012
  | .correlationID => 0x0013
  | .networkAppearance => 0x0200
  | .userCause => 0x0204
  | .congestionIndications => 0x0205
  | .concernedDestination => 0x0206
  | .routingKey => 0x0207
  | .registrationResult => 0x0208
  | .deregistrationResult => 0x0209
  | .localRoutingKeyIdentifier => 0x020a
  | .destinationPointCode => 0x020b
  | .serviceIndicators => 0x020c
  | .originatingPointCodeList => 0x020e
  | .protocolData => 0x0210
  | .registrationStatus => 0x0212
  | .deregistrationStatus => 0x0213

/-- Messages of RFC 4666 that the library knows by type (all but the RKM class). -/
inductive Kind where
  | error | notify
  | data
  | duna | dava | daud | scon | dupu | drst
  | aspUp | aspDown | heartbeat | aspUpAck | aspDownAck | heartbeatAck
  | aspActive | aspInactive | aspActiveAck | aspInactiveAck
  deriving DecidableEq, Repr

/-- All of them. -/
def Kind.all : List Kind :=
  [.error, .notify, .data, .duna, .dava, .daud, .scon, .dupu, .drst, .aspUp, .aspDown, .heartbeat,
   .aspUpAck, .aspDownAck, .heartbeatAck, .aspActive, .aspInactive, .aspActiveAck, .aspInactiveAck]

/-- Message class, RFC 4666, 3.1.2: MGMT 0, Transfer 1, SSNM 2, ASPSM 3, ASPTM 4. -/
def Kind.cls : Kind → Nat
  | .error | .notify => 0
  | .data => 1
  | .duna | .dava | .daud | .scon | .dupu | .drst => 2
  | .aspUp | .aspDown | .heartbeat | .aspUpAck | .aspDownAck | .heartbeatAck => 3
  | .aspActive | .aspInactive | .aspActiveAck | .aspInactiveAck => 4

/-- Message type, RFC 4666, 3.1.3. -/
def Kind.typ : Kind → Nat
  | .error => 0
  | .notify => 1
  | .data => 1
  | .duna => 1
  | .dava => 2
  | .daud => 3
  | .scon => 4
  | .dupu => 5
  | .drst => 6
  | .aspUp => 1
  | .aspDown => 2
  | .heartbeat => 3
  | .aspUpAck => 4
  | .aspDownAck => 5
  | .heartbeatAck => 6
  | .aspActive => 1
  | .aspInactive => 2
  | .aspActiveAck => 3
  | .aspInactiveAck => 4

/-- Parameters of each message, RFC 4666, 3.3.1, 3.4.1-3.4.6, 3.5.1-3.5.6, 3.7.1-3.7.4, 3.8.1-3.8.2,
in the RFC's order. -/
def Kind.params : Kind → List PName
  | .data => [.networkAppearance, .routingContext, .protocolData, .correlationID]
  | .duna | .dava | .daud | .drst => [.networkAppearance, .routingContext, .affectedPointCode, .infoString]
  | .scon => [.networkAppearance, .routingContext, .affectedPointCode, .concernedDestination,
      .congestionIndications, .infoString]
  | .dupu => [.networkAppearance, .routingContext, .affectedPointCode, .userCause, .infoString]
  | .aspUp | .aspUpAck => [.aspIdentifier, .infoString]
  | .aspDown | .aspDownAck => [.infoString]
  | .heartbeat | .heartbeatAck => [.heartbeatData]
  | .aspActive | .aspActiveAck => [.trafficModeType, .routingContext, .infoString]
  | .aspInactive | .aspInactiveAck => [.routingContext, .infoString]
  | .error => [.errorCode, .routingContext, .networkAppearance, .affectedPointCode, .diagnosticInformation]
  | .notify => [.status, .aspIdentifier, .routingContext, .infoString]

/-- Value of the last parameter with the tag of `n` in a sequence of (tag, value) pairs. -/
def lastValue (n : PName) (ps : List (Nat × List UInt8)) : Option (List UInt8) :=
  ((ps.filter fun x => x.1 = n.tag).getLast?).map (·.2)

end M3.Spec
