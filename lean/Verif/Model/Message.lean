import Verif.Model.Generic
import Verif.Model.Msg.Error
import Verif.Model.Msg.Notify
import Verif.Model.Msg.Data
import Verif.Model.Msg.Duna
import Verif.Model.Msg.Dava
import Verif.Model.Msg.Daud
import Verif.Model.Msg.Scon
import Verif.Model.Msg.Dupu
import Verif.Model.Msg.Drst
import Verif.Model.Msg.AspUp
import Verif.Model.Msg.AspDown
import Verif.Model.Msg.Heartbeat
import Verif.Model.Msg.AspUpAck
import Verif.Model.Msg.AspDownAck
import Verif.Model.Msg.HeartbeatAck
import Verif.Model.Msg.AspActive
import Verif.Model.Msg.AspInactive
import Verif.Model.Msg.AspActiveAck
import Verif.Model.Msg.AspInactiveAck
import Verif.Spec.Table

/- Model of `messages/message.go`: the `M3UA` interface and `Parse`. Written by `tools/gen_message_sum.py`. -/

namespace M3

/-- A value of the interface type `M3UA`, `messages/message.go:88-99`: a non-nil pointer to one of the
20 message types of the package. -/
inductive M3UA where
  | error (m : Msg.Error)
  | notify (m : Msg.Notify)
  | data (m : Msg.Data)
  | duna (m : Msg.DestinationUnavailable)
  | dava (m : Msg.DestinationAvailable)
  | daud (m : Msg.DestinationStateAudit)
  | scon (m : Msg.SignallingCongestion)
  | dupu (m : Msg.DestinationUserPartUnavailable)
  | drst (m : Msg.DestinationRestricted)
  | aspUp (m : Msg.AspUp)
  | aspDown (m : Msg.AspDown)
  | heartbeat (m : Msg.Heartbeat)
  | aspUpAck (m : Msg.AspUpAck)
  | aspDownAck (m : Msg.AspDownAck)
  | heartbeatAck (m : Msg.HeartbeatAck)
  | aspActive (m : Msg.AspActive)
  | aspInactive (m : Msg.AspInactive)
  | aspActiveAck (m : Msg.AspActiveAck)
  | aspInactiveAck (m : Msg.AspInactiveAck)
  | generic (m : Msg.Generic)
  deriving DecidableEq, Repr

namespace M3UA

/-- Dynamic dispatch of `MarshalLen`, `message.go:92`. -/
def marshalLen : M3UA → Nat
  | .error m => m.marshalLen
  | .notify m => m.marshalLen
  | .data m => m.marshalLen
  | .duna m => m.marshalLen
  | .dava m => m.marshalLen
  | .daud m => m.marshalLen
  | .scon m => m.marshalLen
  | .dupu m => m.marshalLen
  | .drst m => m.marshalLen
  | .aspUp m => m.marshalLen
  | .aspDown m => m.marshalLen
  | .heartbeat m => m.marshalLen
  | .aspUpAck m => m.marshalLen
  | .aspDownAck m => m.marshalLen
  | .heartbeatAck m => m.marshalLen
  | .aspActive m => m.marshalLen
  | .aspInactive m => m.marshalLen
  | .aspActiveAck m => m.marshalLen
  | .aspInactiveAck m => m.marshalLen
  | .generic m => m.marshalLen

/-- Dynamic dispatch of `MarshalTo`, `message.go:90`. -/
def marshalTo (b : Slice) : M3UA → Res (M3UA × Bytes)
  | .error m => m.marshalTo b >>= fun r => .ok (.error r.1, r.2)
  | .notify m => m.marshalTo b >>= fun r => .ok (.notify r.1, r.2)
  | .data m => m.marshalTo b >>= fun r => .ok (.data r.1, r.2)
  | .duna m => m.marshalTo b >>= fun r => .ok (.duna r.1, r.2)
  | .dava m => m.marshalTo b >>= fun r => .ok (.dava r.1, r.2)
  | .daud m => m.marshalTo b >>= fun r => .ok (.daud r.1, r.2)
  | .scon m => m.marshalTo b >>= fun r => .ok (.scon r.1, r.2)
  | .dupu m => m.marshalTo b >>= fun r => .ok (.dupu r.1, r.2)
  | .drst m => m.marshalTo b >>= fun r => .ok (.drst r.1, r.2)
  | .aspUp m => m.marshalTo b >>= fun r => .ok (.aspUp r.1, r.2)
  | .aspDown m => m.marshalTo b >>= fun r => .ok (.aspDown r.1, r.2)
  | .heartbeat m => m.marshalTo b >>= fun r => .ok (.heartbeat r.1, r.2)
  | .aspUpAck m => m.marshalTo b >>= fun r => .ok (.aspUpAck r.1, r.2)
  | .aspDownAck m => m.marshalTo b >>= fun r => .ok (.aspDownAck r.1, r.2)
  | .heartbeatAck m => m.marshalTo b >>= fun r => .ok (.heartbeatAck r.1, r.2)
  | .aspActive m => m.marshalTo b >>= fun r => .ok (.aspActive r.1, r.2)
  | .aspInactive m => m.marshalTo b >>= fun r => .ok (.aspInactive r.1, r.2)
  | .aspActiveAck m => m.marshalTo b >>= fun r => .ok (.aspActiveAck r.1, r.2)
  | .aspInactiveAck m => m.marshalTo b >>= fun r => .ok (.aspInactiveAck r.1, r.2)
  | .generic m => m.marshalTo b >>= fun r => .ok (.generic r.1, r.2)

/-- Dynamic dispatch of `MarshalBinary`, `message.go:89`. -/
def marshalBinary : M3UA → Res (M3UA × Bytes)
  | .error m => m.marshalBinary >>= fun r => .ok (.error r.1, r.2)
  | .notify m => m.marshalBinary >>= fun r => .ok (.notify r.1, r.2)
  | .data m => m.marshalBinary >>= fun r => .ok (.data r.1, r.2)
  | .duna m => m.marshalBinary >>= fun r => .ok (.duna r.1, r.2)
  | .dava m => m.marshalBinary >>= fun r => .ok (.dava r.1, r.2)
  | .daud m => m.marshalBinary >>= fun r => .ok (.daud r.1, r.2)
  | .scon m => m.marshalBinary >>= fun r => .ok (.scon r.1, r.2)
  | .dupu m => m.marshalBinary >>= fun r => .ok (.dupu r.1, r.2)
  | .drst m => m.marshalBinary >>= fun r => .ok (.drst r.1, r.2)
  | .aspUp m => m.marshalBinary >>= fun r => .ok (.aspUp r.1, r.2)
  | .aspDown m => m.marshalBinary >>= fun r => .ok (.aspDown r.1, r.2)
  | .heartbeat m => m.marshalBinary >>= fun r => .ok (.heartbeat r.1, r.2)
  | .aspUpAck m => m.marshalBinary >>= fun r => .ok (.aspUpAck r.1, r.2)
  | .aspDownAck m => m.marshalBinary >>= fun r => .ok (.aspDownAck r.1, r.2)
  | .heartbeatAck m => m.marshalBinary >>= fun r => .ok (.heartbeatAck r.1, r.2)
  | .aspActive m => m.marshalBinary >>= fun r => .ok (.aspActive r.1, r.2)
  | .aspInactive m => m.marshalBinary >>= fun r => .ok (.aspInactive r.1, r.2)
  | .aspActiveAck m => m.marshalBinary >>= fun r => .ok (.aspActiveAck r.1, r.2)
  | .aspInactiveAck m => m.marshalBinary >>= fun r => .ok (.aspInactiveAck r.1, r.2)
  | .generic m => m.marshalBinary >>= fun r => .ok (.generic r.1, r.2)

/-- Dynamic dispatch of `UnmarshalBinary`, `message.go:91`. -/
def unmarshalBinary (b : Bytes) : M3UA → Res M3UA
  | .error m => m.unmarshalBinary b >>= fun m => .ok (.error m)
  | .notify m => m.unmarshalBinary b >>= fun m => .ok (.notify m)
  | .data m => m.unmarshalBinary b >>= fun m => .ok (.data m)
  | .duna m => m.unmarshalBinary b >>= fun m => .ok (.duna m)
  | .dava m => m.unmarshalBinary b >>= fun m => .ok (.dava m)
  | .daud m => m.unmarshalBinary b >>= fun m => .ok (.daud m)
  | .scon m => m.unmarshalBinary b >>= fun m => .ok (.scon m)
  | .dupu m => m.unmarshalBinary b >>= fun m => .ok (.dupu m)
  | .drst m => m.unmarshalBinary b >>= fun m => .ok (.drst m)
  | .aspUp m => m.unmarshalBinary b >>= fun m => .ok (.aspUp m)
  | .aspDown m => m.unmarshalBinary b >>= fun m => .ok (.aspDown m)
  | .heartbeat m => m.unmarshalBinary b >>= fun m => .ok (.heartbeat m)
  | .aspUpAck m => m.unmarshalBinary b >>= fun m => .ok (.aspUpAck m)
  | .aspDownAck m => m.unmarshalBinary b >>= fun m => .ok (.aspDownAck m)
  | .heartbeatAck m => m.unmarshalBinary b >>= fun m => .ok (.heartbeatAck m)
  | .aspActive m => m.unmarshalBinary b >>= fun m => .ok (.aspActive m)
  | .aspInactive m => m.unmarshalBinary b >>= fun m => .ok (.aspInactive m)
  | .aspActiveAck m => m.unmarshalBinary b >>= fun m => .ok (.aspActiveAck m)
  | .aspInactiveAck m => m.unmarshalBinary b >>= fun m => .ok (.aspInactiveAck m)
  | .generic m => m.unmarshalBinary b >>= fun m => .ok (.generic m)

/-- The embedded header. -/
def header : M3UA → Header
  | .error m => m.header
  | .notify m => m.header
  | .data m => m.header
  | .duna m => m.header
  | .dava m => m.header
  | .daud m => m.header
  | .scon m => m.header
  | .dupu m => m.header
  | .drst m => m.header
  | .aspUp m => m.header
  | .aspDown m => m.header
  | .heartbeat m => m.header
  | .aspUpAck m => m.header
  | .aspDownAck m => m.header
  | .heartbeatAck m => m.header
  | .aspActive m => m.header
  | .aspInactive m => m.header
  | .aspActiveAck m => m.header
  | .aspInactiveAck m => m.header
  | .generic m => m.header

/-- Dynamic dispatch of `MessageClass`, `message.go:94`. -/
def messageClass : M3UA → UInt8
  | .error m => m.messageClass
  | .notify m => m.messageClass
  | .data m => m.messageClass
  | .duna m => m.messageClass
  | .dava m => m.messageClass
  | .daud m => m.messageClass
  | .scon m => m.messageClass
  | .dupu m => m.messageClass
  | .drst m => m.messageClass
  | .aspUp m => m.messageClass
  | .aspDown m => m.messageClass
  | .heartbeat m => m.messageClass
  | .aspUpAck m => m.messageClass
  | .aspDownAck m => m.messageClass
  | .heartbeatAck m => m.messageClass
  | .aspActive m => m.messageClass
  | .aspInactive m => m.messageClass
  | .aspActiveAck m => m.messageClass
  | .aspInactiveAck m => m.messageClass
  | .generic m => m.messageClass

/-- Dynamic dispatch of `MessageType`, `message.go:95`. -/
def messageType : M3UA → UInt8
  | .error m => m.messageType
  | .notify m => m.messageType
  | .data m => m.messageType
  | .duna m => m.messageType
  | .dava m => m.messageType
  | .daud m => m.messageType
  | .scon m => m.messageType
  | .dupu m => m.messageType
  | .drst m => m.messageType
  | .aspUp m => m.messageType
  | .aspDown m => m.messageType
  | .heartbeat m => m.messageType
  | .aspUpAck m => m.messageType
  | .aspDownAck m => m.messageType
  | .heartbeatAck m => m.messageType
  | .aspActive m => m.messageType
  | .aspInactive m => m.messageType
  | .aspActiveAck m => m.messageType
  | .aspInactiveAck m => m.messageType
  | .generic m => m.messageType

/-- Dynamic dispatch of `Version`, `message.go:93`. -/
def version : M3UA → UInt8
  | .error m => m.version
  | .notify m => m.version
  | .data m => m.version
  | .duna m => m.version
  | .dava m => m.version
  | .daud m => m.version
  | .scon m => m.version
  | .dupu m => m.version
  | .drst m => m.version
  | .aspUp m => m.version
  | .aspDown m => m.version
  | .heartbeat m => m.version
  | .aspUpAck m => m.version
  | .aspDownAck m => m.version
  | .heartbeatAck m => m.version
  | .aspActive m => m.version
  | .aspInactive m => m.version
  | .aspActiveAck m => m.version
  | .aspInactiveAck m => m.version
  | .generic m => m.version

/-- Package function `MarshalBinary`, `message.go:103-110`. -/
def marshalBinaryOf (m : M3UA) : Res (M3UA × Bytes) := do
  let b := Slice.make m.marshalLen
  let (m, mem) ← m.marshalTo b
  return (m, { b with mem := mem }.bytes)

/-- The local function `combine` of `Parse`, `message.go:119-121`: the shift is in `uint8`. -/
def combine (c t : UInt8) : UInt16 := ((c <<< 4) ||| t).toUInt16

/-- The switch of `Parse`, `message.go:122-171`: an empty value of the selected type. -/
def select (t : UInt16) : M3UA :=
  if t = combine 1 1 then .data Msg.Data.zero
  else if t = combine 2 1 then .duna Msg.DestinationUnavailable.zero
  else if t = combine 2 2 then .dava Msg.DestinationAvailable.zero
  else if t = combine 2 3 then .daud Msg.DestinationStateAudit.zero
  else if t = combine 2 4 then .scon Msg.SignallingCongestion.zero
  else if t = combine 2 5 then .dupu Msg.DestinationUserPartUnavailable.zero
  else if t = combine 2 6 then .drst Msg.DestinationRestricted.zero
  else if t = combine 3 1 then .aspUp Msg.AspUp.zero
  else if t = combine 3 2 then .aspDown Msg.AspDown.zero
  else if t = combine 3 3 then .heartbeat Msg.Heartbeat.zero
  else if t = combine 3 4 then .aspUpAck Msg.AspUpAck.zero
  else if t = combine 3 5 then .aspDownAck Msg.AspDownAck.zero
  else if t = combine 3 6 then .heartbeatAck Msg.HeartbeatAck.zero
  else if t = combine 4 1 then .aspActive Msg.AspActive.zero
  else if t = combine 4 3 then .aspActiveAck Msg.AspActiveAck.zero
  else if t = combine 4 2 then .aspInactive Msg.AspInactive.zero
  else if t = combine 4 4 then .aspInactiveAck Msg.AspInactiveAck.zero
  else if t = combine 0 0 then .error Msg.Error.zero
  else if t = combine 0 1 then .notify Msg.Notify.zero
  else .generic Msg.Generic.zero

/-- `Parse`, `message.go:114-177`. -/
def parse (b : Bytes) : Res M3UA := do
  if b.length < 4 then .err .msgTooShortToParse else
  let c ← rindex b 2
  let t ← rindex b 3
  (select (combine c t)).unmarshalBinary b

/-- Which of the known messages this is; `none` for `Generic`. -/
def kind : M3UA → Option Spec.Kind
  | .error _ => some .error
  | .notify _ => some .notify
  | .data _ => some .data
  | .duna _ => some .duna
  | .dava _ => some .dava
  | .daud _ => some .daud
  | .scon _ => some .scon
  | .dupu _ => some .dupu
  | .drst _ => some .drst
  | .aspUp _ => some .aspUp
  | .aspDown _ => some .aspDown
  | .heartbeat _ => some .heartbeat
  | .aspUpAck _ => some .aspUpAck
  | .aspDownAck _ => some .aspDownAck
  | .heartbeatAck _ => some .heartbeatAck
  | .aspActive _ => some .aspActive
  | .aspInactive _ => some .aspInactive
  | .aspActiveAck _ => some .aspActiveAck
  | .aspInactiveAck _ => some .aspInactiveAck
  | .generic _ => none

/-- The exported parameter field with the given name (nil if there is no such field). -/
def field : M3UA → Spec.PName → Option Param
  | .error m, .errorCode => m.errorCode
  | .error m, .routingContext => m.routingContext
  | .error m, .networkAppearance => m.networkAppearance
  | .error m, .affectedPointCode => m.affectedPointCode
  | .error m, .diagnosticInformation => m.diagnosticInformation
  | .notify m, .status => m.status
  | .notify m, .aspIdentifier => m.aspIdentifier
  | .notify m, .routingContext => m.routingContext
  | .notify m, .infoString => m.infoString
  | .data m, .networkAppearance => m.networkAppearance
  | .data m, .routingContext => m.routingContext
  | .data m, .protocolData => m.protocolData
  | .data m, .correlationID => m.correlationID
  | .duna m, .networkAppearance => m.networkAppearance
  | .duna m, .routingContext => m.routingContext
  | .duna m, .affectedPointCode => m.affectedPointCode
  | .duna m, .infoString => m.infoString
  | .dava m, .networkAppearance => m.networkAppearance
  | .dava m, .routingContext => m.routingContext
  | .dava m, .affectedPointCode => m.affectedPointCode
  | .dava m, .infoString => m.infoString
  | .daud m, .networkAppearance => m.networkAppearance
  | .daud m, .routingContext => m.routingContext
  | .daud m, .affectedPointCode => m.affectedPointCode
  | .daud m, .infoString => m.infoString
  | .scon m, .networkAppearance => m.networkAppearance
  | .scon m, .routingContext => m.routingContext
  | .scon m, .affectedPointCode => m.affectedPointCode
  | .scon m, .concernedDestination => m.concernedDestination
  | .scon m, .congestionIndications => m.congestionIndications
  | .scon m, .infoString => m.infoString
  | .dupu m, .networkAppearance => m.networkAppearance
  | .dupu m, .routingContext => m.routingContext
  | .dupu m, .affectedPointCode => m.affectedPointCode
  | .dupu m, .userCause => m.userCause
  | .dupu m, .infoString => m.infoString
  | .drst m, .networkAppearance => m.networkAppearance
  | .drst m, .routingContext => m.routingContext
  | .drst m, .affectedPointCode => m.affectedPointCode
  | .drst m, .infoString => m.infoString
  | .aspUp m, .aspIdentifier => m.aspIdentifier
  | .aspUp m, .infoString => m.infoString
  | .aspDown m, .infoString => m.infoString
  | .heartbeat m, .heartbeatData => m.heartbeatData
  | .aspUpAck m, .aspIdentifier => m.aspIdentifier
  | .aspUpAck m, .infoString => m.infoString
  | .aspDownAck m, .infoString => m.infoString
  | .heartbeatAck m, .heartbeatData => m.heartbeatData
  | .aspActive m, .trafficModeType => m.trafficModeType
  | .aspActive m, .routingContext => m.routingContext
  | .aspActive m, .infoString => m.infoString
  | .aspInactive m, .routingContext => m.routingContext
  | .aspInactive m, .infoString => m.infoString
  | .aspActiveAck m, .trafficModeType => m.trafficModeType
  | .aspActiveAck m, .routingContext => m.routingContext
  | .aspActiveAck m, .infoString => m.infoString
  | .aspInactiveAck m, .routingContext => m.routingContext
  | .aspInactiveAck m, .infoString => m.infoString
  | _, _ => none

/-- The exported but unused field `AspIdentifier` of the ASP Down and Heartbeat messages and their
acknowledgements (`asp-down.go:19`, `heartbeat.go:19`, ...); nil for all other messages. -/
def unusedField : M3UA → Option Param
  | .aspDown m => m.aspIdentifier
  | .heartbeat m => m.aspIdentifier
  | .aspDownAck m => m.aspIdentifier
  | .heartbeatAck m => m.aspIdentifier
  | _ => none

/-- Result of one of the 19 constructors `NewXxx`, with any arguments. -/
inductive Constructed : M3UA → Prop
  | error (code rtCtx nwApr apc info : Option Param) : Constructed (.error (Msg.Error.new code rtCtx nwApr apc info))
  | notify (status aspID rtCtx info : Option Param) : Constructed (.notify (Msg.Notify.new status aspID rtCtx info))
  | data (nwApr rtCtx pd corrID : Option Param) : Constructed (.data (Msg.Data.new nwApr rtCtx pd corrID))
  | duna (nwApr rtCtx apcs info : Option Param) : Constructed (.duna (Msg.DestinationUnavailable.new nwApr rtCtx apcs info))
  | dava (nwApr rtCtx apcs info : Option Param) : Constructed (.dava (Msg.DestinationAvailable.new nwApr rtCtx apcs info))
  | daud (nwApr rtCtx apcs info : Option Param) : Constructed (.daud (Msg.DestinationStateAudit.new nwApr rtCtx apcs info))
  | scon (nwApr rtCtx apc cdst ind info : Option Param) : Constructed (.scon (Msg.SignallingCongestion.new nwApr rtCtx apc cdst ind info))
  | dupu (nwApr rtCtx apcs cause info : Option Param) : Constructed (.dupu (Msg.DestinationUserPartUnavailable.new nwApr rtCtx apcs cause info))
  | drst (nwApr rtCtx apcs info : Option Param) : Constructed (.drst (Msg.DestinationRestricted.new nwApr rtCtx apcs info))
  | aspUp (aspID info : Option Param) : Constructed (.aspUp (Msg.AspUp.new aspID info))
  | aspDown (info : Option Param) : Constructed (.aspDown (Msg.AspDown.new info))
  | heartbeat (hbData : Option Param) : Constructed (.heartbeat (Msg.Heartbeat.new hbData))
  | aspUpAck (aspID info : Option Param) : Constructed (.aspUpAck (Msg.AspUpAck.new aspID info))
  | aspDownAck (info : Option Param) : Constructed (.aspDownAck (Msg.AspDownAck.new info))
  | heartbeatAck (hbData : Option Param) : Constructed (.heartbeatAck (Msg.HeartbeatAck.new hbData))
  | aspActive (tmt rtCtx info : Option Param) : Constructed (.aspActive (Msg.AspActive.new tmt rtCtx info))
  | aspInactive (rtCtx info : Option Param) : Constructed (.aspInactive (Msg.AspInactive.new rtCtx info))
  | aspActiveAck (tmt rtCtx info : Option Param) : Constructed (.aspActiveAck (Msg.AspActiveAck.new tmt rtCtx info))
  | aspInactiveAck (rtCtx info : Option Param) : Constructed (.aspInactiveAck (Msg.AspInactiveAck.new rtCtx info))

end M3UA

end M3
