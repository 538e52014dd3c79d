import Verif.Spec.Flow

/- Specification: what gives a connection work to do. -/

set_option autoImplicit false

namespace M3.Spec

open M3.Conn

/-- The number of calls the user has made. -/
def userCalls (w : World) : Nat := (w.threads.map Thread.gor).countP ofUser

/-- A call of a method that is there to transmit something. -/
def posts : Gor → Bool
  | .api (.write _) | .api (.writeToStream _ _) | .api (.writePD _) | .api (.writePDToStream _ _) | .api (.writeSignal _) => true
  | _ => false

/-- The number of calls of methods that transmit something. -/
def postings (w : World) : Nat := (w.threads.map Thread.gor).countP posts

/-- A heartbeat interval elapses. -/
def elapsed : Ev → Bool
  | ⟨.sleepSelect, r⟩ => r = false
  | _ => false

/-- The number of heartbeat intervals that have elapsed. -/
def beats (l : List Rec) : Nat := l.countP fun x => elapsed x.ev

end M3.Spec
