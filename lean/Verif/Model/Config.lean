import Verif.Model.ParamKinds

/- Model of `config.go` and of the part of `client.go` / `server.go` that runs before SCTP is touched. -/

namespace M3

/-- `HeartbeatInfo`, `config.go:14-19`. Durations are nanoseconds (`time.Duration` is `int64`). -/
structure HeartbeatInfo where
  enabled : Bool
  interval : Int
  timer : Int
  data : Bytes
  deriving DecidableEq, Repr

/-- `NewHeartbeatInfo`, `config.go:22-26`. -/
def HeartbeatInfo.new (interval timer : Int) (data : Bytes) : HeartbeatInfo := ⟨true, interval, timer, data⟩

/-- `Config`, `config.go:29-42`. A nil pointer is `none`. Pointers are modelled by the values they
point to: nothing in the library changes a `Param` of a `Config` after it was stored (`SetLength`
recomputes the same length), and the only shared mutable part, `HeartbeatInfo.Data`, is a
separate variable of the connection model. -/
structure Config where
  heartbeatInfo : Option HeartbeatInfo
  aspIdentifier : Option Param
  trafficModeType : Option Param
  networkAppearance : Option Param
  routingContexts : Option Param
  correlationID : Option Param
  originatingPointCode : UInt32
  destinationPointCode : UInt32
  serviceIndicator : UInt8
  networkIndicator : UInt8
  messagePriority : UInt8
  signalingLinkSelection : UInt8
  deriving DecidableEq, Repr

namespace Config

/-- `NewConfig`, `config.go:50-59`. -/
def new (opc dpc : UInt32) (si ni mp sls : UInt8) : Config where
  heartbeatInfo := none
  aspIdentifier := none
  trafficModeType := none
  networkAppearance := none
  routingContexts := none
  correlationID := none
  originatingPointCode := opc
  destinationPointCode := dpc
  serviceIndicator := si
  networkIndicator := ni
  messagePriority := mp
  signalingLinkSelection := sls

/-- The string literal of `config.go:70`. -/
def defaultBeat : Bytes := "Hi, this is a BEAT from go-m3ua. Are you alive?".toUTF8.toList

/-- `(*Config).EnableHeartbeat`, `config.go:67-73`. -/
def enableHeartbeat (c : Config) (interval timer : Int) : Config :=
  { c with heartbeatInfo := some (HeartbeatInfo.new interval timer defaultBeat) }

/-- `(*Config).SetAspIdentifier`, `config.go:76-79`. -/
def setAspIdentifier (c : Config) (id : UInt32) : Config :=
  { c with aspIdentifier := some (Param.newAspIdentifier id) }

/-- `(*Config).SetTrafficModeType`, `config.go:82-85`. -/
def setTrafficModeType (c : Config) (tmType : UInt32) : Config :=
  { c with trafficModeType := some (Param.newTrafficModeType tmType) }

/-- `(*Config).SetNetworkAppearance`, `config.go:88-91`. -/
def setNetworkAppearance (c : Config) (nwApr : UInt32) : Config :=
  { c with networkAppearance := some (Param.newNetworkAppearance nwApr) }

/-- `(*Config).SetRoutingContexts`, `config.go:94-97`. -/
def setRoutingContexts (c : Config) (rtCtxs : List UInt32) : Config :=
  { c with routingContexts := some (Param.newRoutingContext rtCtxs) }

/-- `(*Config).SetCorrelationID`, `config.go:100-103`. -/
def setCorrelationID (c : Config) (id : UInt32) : Config :=
  { c with correlationID := some (Param.newCorrelationID id) }

/-- `NewClientConfig`, `config.go:109-124`. -/
def newClient (hbInfo : Option HeartbeatInfo) (opc dpc aspID tmt nwApr corrID : UInt32)
    (rtCtxs : List UInt32) (si ni mp sls : UInt8) : Config where
  heartbeatInfo := hbInfo
  aspIdentifier := some (Param.newAspIdentifier aspID)
  trafficModeType := some (Param.newTrafficModeType tmt)
  networkAppearance := some (Param.newNetworkAppearance nwApr)
  routingContexts := some (Param.newRoutingContext rtCtxs)
  correlationID := some (Param.newCorrelationID corrID)
  originatingPointCode := opc
  destinationPointCode := dpc
  serviceIndicator := si
  networkIndicator := ni
  messagePriority := mp
  signalingLinkSelection := sls

/-- `NewServerConfig`, `config.go:130-145`. -/
def newServer (hbInfo : Option HeartbeatInfo) (opc dpc aspID tmt nwApr corrID : UInt32)
    (rtCtxs : List UInt32) (si ni mp sls : UInt8) : Config where
  heartbeatInfo := hbInfo
  aspIdentifier := some (Param.newAspIdentifier aspID)
  trafficModeType := some (Param.newTrafficModeType tmt)
  networkAppearance := some (Param.newNetworkAppearance nwApr)
  routingContexts := some (Param.newRoutingContext rtCtxs)
  correlationID := some (Param.newCorrelationID corrID)
  originatingPointCode := opc
  destinationPointCode := dpc
  serviceIndicator := si
  networkIndicator := ni
  messagePriority := mp
  signalingLinkSelection := sls

end Config

/-- `netMap`, `conn.go:57-61`. -/
def netMap : String → Option String
  | "m3ua" => some "sctp"
  | "m3ua4" => some "sctp4"
  | "m3ua6" => some "sctp6"
  | _ => none

/-- What `Dial`, `Listen` and `Accept` do before their first call into the SCTP package. -/
inductive Opening (α : Type) where
  /-- nil pointer dereference -/
  | panic
  /-- returns `fmt.Errorf("invalid network: %s", net)` -/
  | invalidNetwork (net : String)
  /-- goes on to call SCTP -/
  | proceed (a : α)
  deriving DecidableEq, Repr

/-- The check on `HeartbeatInfo.Interval`, `client.go:30-32` and `server.go:53-55`. -/
def checkInterval (cfg : Config) : Opening Config :=
  match cfg.heartbeatInfo with
  | none => .panic
  | some hb => if hb.interval = 0 then .proceed { cfg with heartbeatInfo := some { hb with enabled := false } }
    else .proceed cfg

/-- `Dial` up to `sctp.DialSCTP`, `client.go:19-39`: the SCTP network name and the configuration the
connection goes on with. -/
def dialOpen (net : String) (cfg : Config) : Opening (String × Config) :=
  match checkInterval cfg with
  | .panic => .panic
  | .invalidNetwork n => .invalidNetwork n
  | .proceed cfg =>
    match netMap net with
    | none => .invalidNetwork net
    | some n => .proceed (n, cfg)

/-- `Listen` up to `sctp.ListenSCTP`, `server.go:24-33`. -/
def listenOpen (net : String) (cfg : Config) : Opening (String × Config) :=
  match netMap net with
  | none => .invalidNetwork net
  | some n => .proceed (n, cfg)

/-- `Accept` up to `l.sctpListener.Accept()`, `server.go:43-57`. -/
def acceptOpen (cfg : Config) : Opening Config := checkInterval cfg

end M3
