import Verif.Model.Conn.Timed

/- Specification of what the timers guarantee. -/

set_option autoImplicit false

namespace M3.Spec

open M3.Conn

/-- When the library handed a heartbeat to SCTP (also if SCTP refused it). -/
def beatTime? : Rec × Nat → Option Nat
  | (⟨_, .beatLoop, .write _ _, _⟩, t) => some t
  | _ => none

/-- When the library handed heartbeats to SCTP, oldest first. -/
def beatTimes (log : List (Rec × Nat)) : List Nat := log.filterMap beatTime?

end M3.Spec
