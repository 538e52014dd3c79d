import Verif.Spec.Conn

/- Specification of what received datagrams mean for the state of a connection. -/

set_option autoImplicit false

namespace M3.Spec

open M3.Conn

/-- The message a received datagram stands for: it can be decoded, its version octet is 1, and it is one of the
known messages. -/
def meaning (raw : List UInt8) : Option Kind :=
  match M3UA.parse raw with
  | .ok m => if raw.getD 0 0 = 1 then m.kind else none
  | _ => none

/-- The state a message asks for. -/
def commands : Kind → Option St
  | .aspUp | .aspUpAck | .aspInactive | .aspInactiveAck => some .inactive
  | .aspActive | .aspActiveAck => some .active
  | .aspDown | .aspDownAck => some .down
  | _ => none

/-- The state a received datagram asks for. -/
def effect (raw : List UInt8) : Option St := (meaning raw).bind commands

/-- The state after a sequence of received datagrams, starting from Down. -/
def stateAfter (rs : List (List UInt8)) : St := rs.foldl (fun s raw => (effect raw).getD s) .down

/-- A datagram was received that asks for AspActive: ASP Active or ASP Active Ack. -/
def activated (l : List Rec) : Prop := ∃ raw ∈ receives l, effect raw = some .active

end M3.Spec
