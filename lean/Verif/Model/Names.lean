import Verif.Model.Message
import Verif.Model.Conn.Prog

/- Names of messages and states as the user sees them. -/

set_option autoImplicit false

namespace M3

namespace ClassName

/- `messages/message.go:28-35`. (`MsgClassNameRKM` is not used.) -/
def management : String := "Management"
def transfer : String := "Transfer"
def ssnm : String := "SSNM"
def aspsm : String := "ASPSM"
def asptm : String := "ASPTM"

end ClassName

namespace M3UA

/-- `MessageClassName` of the message types, each in its file under `messages/`. -/
def messageClassName : M3UA → String
  -- `error.go:211-213`
  | .error _ => ClassName.management
  -- `notify.go:202-204`
  | .notify _ => ClassName.management
  -- `data.go:193-195`
  | .data _ => ClassName.transfer
  -- `duna.go:178-180`
  | .duna _ => ClassName.ssnm
  -- `dava.go:178-180`
  | .dava _ => ClassName.ssnm
  -- `daud.go:178-180`
  | .daud _ => ClassName.ssnm
  -- `scon.go:223-225`
  | .scon _ => ClassName.ssnm
  -- `dupu.go:193-195`
  | .dupu _ => ClassName.ssnm
  -- `drst.go:178-180`
  | .drst _ => ClassName.ssnm
  -- `asp-up.go:157-159`
  | .aspUp _ => ClassName.aspsm
  -- `asp-down.go:139-141`
  | .aspDown _ => ClassName.aspsm
  -- `heartbeat.go:139-141`
  | .heartbeat _ => ClassName.aspsm
  -- `asp-up-ack.go:157-159`
  | .aspUpAck _ => ClassName.aspsm
  -- `asp-down-ack.go:139-141`
  | .aspDownAck _ => ClassName.aspsm
  -- `heartbeat-ack.go:139-141`
  | .heartbeatAck _ => ClassName.aspsm
  -- `asp-active.go:175-177`
  | .aspActive _ => ClassName.asptm
  -- `asp-inactive.go:157-159`
  | .aspInactive _ => ClassName.asptm
  -- `asp-active-ack.go:175-177`
  | .aspActiveAck _ => ClassName.asptm
  -- `asp-inactive-ack.go:157-159`
  | .aspInactiveAck _ => ClassName.asptm
  -- `generic.go:139-141`
  | .generic _ => "Unknown"

/-- `MessageTypeName` of the message types. -/
def messageTypeName : M3UA → String
  -- `error.go:216-218`
  | .error _ => "Error"
  -- `notify.go:207-209`
  | .notify _ => "Notify"
  -- `data.go:198-200`
  | .data _ => "Payload Data"
  -- `duna.go:183-185`
  | .duna _ => "Destination Unavailable"
  -- `dava.go:183-185`
  | .dava _ => "Destination Available"
  -- `daud.go:183-185`
  | .daud _ => "Destination State Audit"
  -- `scon.go:228-230`
  | .scon _ => "Signalling Congestion"
  -- `dupu.go:198-200`
  | .dupu _ => "Destination User Part Unavailable"
  -- `drst.go:183-185`
  | .drst _ => "Destination Restricted"
  -- `asp-up.go:162-164`
  | .aspUp _ => "ASP Up"
  -- `asp-down.go:144-146`
  | .aspDown _ => "ASP Down"
  -- `heartbeat.go:144-146`
  | .heartbeat _ => "Heartbeat"
  -- `asp-up-ack.go:162-164`
  | .aspUpAck _ => "ASP Up Ack"
  -- `asp-down-ack.go:144-146`
  | .aspDownAck _ => "ASP Down Ack"
  -- `heartbeat-ack.go:144-146`
  | .heartbeatAck _ => "Heartbeat Ack"
  -- `asp-active.go:180-182`
  | .aspActive _ => "ASP Active"
  -- `asp-inactive.go:162-164`
  | .aspInactive _ => "ASP Inactive"
  -- `asp-active-ack.go:180-182`
  | .aspActiveAck _ => "ASP Active Ack"
  -- `asp-inactive-ack.go:162-164`
  | .aspInactiveAck _ => "ASP Inactive Ack"
  -- `generic.go:144-146`
  | .generic _ => "Unknown"

end M3UA

namespace Conn

/-- `State`, `fsm.go:16-26`: the number of a state. -/
def St.code : St → UInt8
  | .down => 0
  | .inactive => 1
  | .active => 2
  | .cdi => 3
  | .ri => 4

/-- `State.String`, `fsm.go:28-43`, on any number. -/
def stateString (s : UInt8) : String :=
  if s = 0 then "AspDown" else
  if s = 1 then "AspInactive" else
  if s = 2 then "AspActive" else
  if s = 3 then "SCTPCDI" else
  if s = 4 then "SCTPRI" else
  "Unknown"

end Conn

end M3
