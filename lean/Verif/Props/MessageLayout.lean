import Verif.Lemmas.Messages

/-! Property C17, one theorem per constructor: the arguments appear in the RFC's order under the
RFC's class and type. Written by `tools/gen_message_sum.py`. -/

set_option autoImplicit false

namespace M3

open Msg Spec

/-- C17 for `NewError`. -/
theorem c17_error (code rtCtx nwApr apc info : Option Param) :
    (M3UA.error (Error.new code rtCtx nwApr apc info)).Encodes
      (message 1 Kind.error.cls Kind.error.typ (presentTlvs [tv code, tv rtCtx, tv nwApr, tv apc, tv info])) :=
  M3UA.layout _ .error rfl rfl [code, rtCtx, nwApr, apc, info] rfl

/-- C17 for `NewNotify`. -/
theorem c17_notify (status aspID rtCtx info : Option Param) :
    (M3UA.notify (Notify.new status aspID rtCtx info)).Encodes
      (message 1 Kind.notify.cls Kind.notify.typ (presentTlvs [tv status, tv aspID, tv rtCtx, tv info])) :=
  M3UA.layout _ .notify rfl rfl [status, aspID, rtCtx, info] rfl

/-- C17 for `NewData`. -/
theorem c17_data (nwApr rtCtx pd corrID : Option Param) :
    (M3UA.data (Data.new nwApr rtCtx pd corrID)).Encodes
      (message 1 Kind.data.cls Kind.data.typ (presentTlvs [tv nwApr, tv rtCtx, tv pd, tv corrID])) :=
  M3UA.layout _ .data rfl rfl [nwApr, rtCtx, pd, corrID] rfl

/-- C17 for `NewDestinationUnavailable`. -/
theorem c17_duna (nwApr rtCtx apcs info : Option Param) :
    (M3UA.duna (DestinationUnavailable.new nwApr rtCtx apcs info)).Encodes
      (message 1 Kind.duna.cls Kind.duna.typ (presentTlvs [tv nwApr, tv rtCtx, tv apcs, tv info])) :=
  M3UA.layout _ .duna rfl rfl [nwApr, rtCtx, apcs, info] rfl

/-- C17 for `NewDestinationAvailable`. -/
theorem c17_dava (nwApr rtCtx apcs info : Option Param) :
    (M3UA.dava (DestinationAvailable.new nwApr rtCtx apcs info)).Encodes
      (message 1 Kind.dava.cls Kind.dava.typ (presentTlvs [tv nwApr, tv rtCtx, tv apcs, tv info])) :=
  M3UA.layout _ .dava rfl rfl [nwApr, rtCtx, apcs, info] rfl

/-- C17 for `NewDestinationStateAudit`. -/
theorem c17_daud (nwApr rtCtx apcs info : Option Param) :
    (M3UA.daud (DestinationStateAudit.new nwApr rtCtx apcs info)).Encodes
      (message 1 Kind.daud.cls Kind.daud.typ (presentTlvs [tv nwApr, tv rtCtx, tv apcs, tv info])) :=
  M3UA.layout _ .daud rfl rfl [nwApr, rtCtx, apcs, info] rfl

/-- C17 for `NewSignallingCongestion`. -/
theorem c17_scon (nwApr rtCtx apc cdst ind info : Option Param) :
    (M3UA.scon (SignallingCongestion.new nwApr rtCtx apc cdst ind info)).Encodes
      (message 1 Kind.scon.cls Kind.scon.typ (presentTlvs [tv nwApr, tv rtCtx, tv apc, tv cdst, tv ind, tv info])) :=
  M3UA.layout _ .scon rfl rfl [nwApr, rtCtx, apc, cdst, ind, info] rfl

/-- C17 for `NewDestinationUserPartUnavailable`. -/
theorem c17_dupu (nwApr rtCtx apcs cause info : Option Param) :
    (M3UA.dupu (DestinationUserPartUnavailable.new nwApr rtCtx apcs cause info)).Encodes
      (message 1 Kind.dupu.cls Kind.dupu.typ (presentTlvs [tv nwApr, tv rtCtx, tv apcs, tv cause, tv info])) :=
  M3UA.layout _ .dupu rfl rfl [nwApr, rtCtx, apcs, cause, info] rfl

/-- C17 for `NewDestinationRestricted`. -/
theorem c17_drst (nwApr rtCtx apcs info : Option Param) :
    (M3UA.drst (DestinationRestricted.new nwApr rtCtx apcs info)).Encodes
      (message 1 Kind.drst.cls Kind.drst.typ (presentTlvs [tv nwApr, tv rtCtx, tv apcs, tv info])) :=
  M3UA.layout _ .drst rfl rfl [nwApr, rtCtx, apcs, info] rfl

/-- C17 for `NewAspUp`. -/
theorem c17_aspUp (aspID info : Option Param) :
    (M3UA.aspUp (AspUp.new aspID info)).Encodes
      (message 1 Kind.aspUp.cls Kind.aspUp.typ (presentTlvs [tv aspID, tv info])) :=
  M3UA.layout _ .aspUp rfl rfl [aspID, info] rfl

/-- C17 for `NewAspDown`. -/
theorem c17_aspDown (info : Option Param) :
    (M3UA.aspDown (AspDown.new info)).Encodes
      (message 1 Kind.aspDown.cls Kind.aspDown.typ (presentTlvs [tv info])) :=
  M3UA.layout _ .aspDown rfl rfl [info] rfl

/-- C17 for `NewHeartbeat`. -/
theorem c17_heartbeat (hbData : Option Param) :
    (M3UA.heartbeat (Heartbeat.new hbData)).Encodes
      (message 1 Kind.heartbeat.cls Kind.heartbeat.typ (presentTlvs [tv hbData])) :=
  M3UA.layout _ .heartbeat rfl rfl [hbData] rfl

/-- C17 for `NewAspUpAck`. -/
theorem c17_aspUpAck (aspID info : Option Param) :
    (M3UA.aspUpAck (AspUpAck.new aspID info)).Encodes
      (message 1 Kind.aspUpAck.cls Kind.aspUpAck.typ (presentTlvs [tv aspID, tv info])) :=
  M3UA.layout _ .aspUpAck rfl rfl [aspID, info] rfl

/-- C17 for `NewAspDownAck`. -/
theorem c17_aspDownAck (info : Option Param) :
    (M3UA.aspDownAck (AspDownAck.new info)).Encodes
      (message 1 Kind.aspDownAck.cls Kind.aspDownAck.typ (presentTlvs [tv info])) :=
  M3UA.layout _ .aspDownAck rfl rfl [info] rfl

/-- C17 for `NewHeartbeatAck`. -/
theorem c17_heartbeatAck (hbData : Option Param) :
    (M3UA.heartbeatAck (HeartbeatAck.new hbData)).Encodes
      (message 1 Kind.heartbeatAck.cls Kind.heartbeatAck.typ (presentTlvs [tv hbData])) :=
  M3UA.layout _ .heartbeatAck rfl rfl [hbData] rfl

example : (M3UA.heartbeatAck (HeartbeatAck.new (some (Param.newHeartbeatData [7])))).Encodes
    [1, 0, 3, 6, 0, 0, 0, 16, 0, 9, 0, 5, 7, 0, 0, 0] :=
  c17_heartbeatAck _

/-- C17 for `NewAspActive`. -/
theorem c17_aspActive (tmt rtCtx info : Option Param) :
    (M3UA.aspActive (AspActive.new tmt rtCtx info)).Encodes
      (message 1 Kind.aspActive.cls Kind.aspActive.typ (presentTlvs [tv tmt, tv rtCtx, tv info])) :=
  M3UA.layout _ .aspActive rfl rfl [tmt, rtCtx, info] rfl

/-- C17 for `NewAspInactive`. -/
theorem c17_aspInactive (rtCtx info : Option Param) :
    (M3UA.aspInactive (AspInactive.new rtCtx info)).Encodes
      (message 1 Kind.aspInactive.cls Kind.aspInactive.typ (presentTlvs [tv rtCtx, tv info])) :=
  M3UA.layout _ .aspInactive rfl rfl [rtCtx, info] rfl

/-- C17 for `NewAspActiveAck`. -/
theorem c17_aspActiveAck (tmt rtCtx info : Option Param) :
    (M3UA.aspActiveAck (AspActiveAck.new tmt rtCtx info)).Encodes
      (message 1 Kind.aspActiveAck.cls Kind.aspActiveAck.typ (presentTlvs [tv tmt, tv rtCtx, tv info])) :=
  M3UA.layout _ .aspActiveAck rfl rfl [tmt, rtCtx, info] rfl

/-- C17 for `NewAspInactiveAck`. -/
theorem c17_aspInactiveAck (rtCtx info : Option Param) :
    (M3UA.aspInactiveAck (AspInactiveAck.new rtCtx info)).Encodes
      (message 1 Kind.aspInactiveAck.cls Kind.aspInactiveAck.typ (presentTlvs [tv rtCtx, tv info])) :=
  M3UA.layout _ .aspInactiveAck rfl rfl [rtCtx, info] rfl

end M3
