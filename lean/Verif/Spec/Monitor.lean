import Verif.Spec.Handling
import Verif.Spec.Meaning

/- Specification of what the goroutine that owns the SCTP association does. -/

set_option autoImplicit false

namespace M3.Spec

open M3.Conn

/-- What a connection sends on entering a state: a client asks for the next state (RFC 4666, 4.3.4.1 and 4.3.4.3), a server
sends nothing. -/
def request (c : Config) : Mode → St → Option (List UInt8)
  | .client, .down => some (message 1 3 1 (presentTlvs [tv c.aspIdentifier]))
  | .client, .inactive => some (message 1 4 1 (presentTlvs [tv c.trafficModeType, tv c.routingContexts]))
  | _, _ => none

/-- `d` was sent once on stream 0, successfully or not; nothing, if there is no `d`. -/
def Asked (d : Option (List UInt8)) (l : List Sent) : Prop :=
  match d with
  | some d => ∃ a, l = [⟨d, 0, 3, a⟩]
  | none => l = []

/-- State found by the monitor when it enters another. -/
def found? : Ev → Option St
  | ⟨.getSt, s⟩ => some s
  | _ => none

/-- Entering state `s`, having found `prev`: `Dial` / `Accept` and the heartbeats are told about the change to AspActive. -/
def entering (prev s : St) : List Op :=
  [.lock, .getSt, .putSt s] ++ (if s = .active ∧ prev ≠ .active then [.sendEst, .broadcast] else []) ++ [.unlock]

/-- `l` is what the monitor has done so far on account of a state `s` reported to it, before turning to anything else;
`final`: it has not turned to anything else. It enters the state, asks for the next state (`d`), reads one datagram and starts its
handler. If reading fails it closes the connection. -/
def Entered (d : Option (List UInt8)) (s : St) (l : List Ev) (final : Prop) : Prop :=
  ∃ prev, (∀ r, (l.filterMap found?).head? = some r → r = prev) ∧
    ((∃ raw, Asked d (l.filterMap sent?) ∧ l.filterMap received? = [raw] ∧
        others l = entering prev s ++ [.read 1500, .spawn (.packet raw)]) ∨
     (final ∧ (l.filterMap sent? = [] ∨ Asked d (l.filterMap sent?)) ∧ others l <+: entering prev s) ∨
     (final ∧ Asked d (l.filterMap sent?) ∧ (l.filterMap received?).length = 1 ∧
        others l = entering prev s ++ [.read 1500]) ∨
     (final ∧ Asked d (l.filterMap sent?) ∧ l.filterMap received? = [] ∧
        ∃ cl, closes cl ∧ others l = entering prev s ++ .read 1500 :: cl))

/-- Class and type of the messages that each goroutine of a connection sends, calls of the user aside. -/
def mayCarry (m : Mode) : Gor → List UInt8 → Prop
  | .monitorLoop, d => octets d = (0, 0) ∨ (m = .client ∧ (octets d = (3, 1) ∨ octets d = (4, 1)))
  | .beatLoop, d => octets d = (3, 3)
  | .packet raw, d => match meaning raw with
    | some .aspUp => octets d = (3, 4)
    | some .aspDown => octets d = (3, 5)
    | some .aspActive => octets d = (4, 3)
    | some .aspInactive => octets d = (4, 4)
    | some .heartbeat => octets d = ((octets raw).1, 6)
    | _ => False
  | .api _, _ => True
  | _, _ => False

end M3.Spec
