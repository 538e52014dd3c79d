import Verif.Spec.Pulse

/- Specification of a session of two endpoints of this library with heartbeats. -/

set_option autoImplicit false

namespace M3.Spec

open M3.Conn

/-- The library has sent a heartbeat and has not yet stored its data, with which the answer will be compared. -/
def posted (l : List Rec) : Bool :=
  l.foldl (fun a x => match x.gor, x.ev.op with
    | .beatLoop, .write .. => true
    | _, .setBeat => false
    | _, _ => a) false

/-- No Heartbeat Ack was read in the moment between sending a heartbeat and storing its data. -/
def Unhurried (l : List Rec) : Prop :=
  ∀ l₁ x l₂ n raw, l = l₁ ++ x :: l₂ → x.ev = ⟨.read n, some raw⟩ → meaning raw = some .heartbeatAck → posted l₁ = false

/-- Executions of two connected endpoints neither of which shares its `HeartbeatInfo` with another connection. -/
inductive Apart (Ea Eb : Env) : Link → Prop where
  | init : Apart Ea Eb (.init Ea Eb)
  | step {p q : Link} : Apart Ea Eb p → Link.Step Ea Eb p q → (q.a.trace = p.a.trace → q.a.sh.beatRef = p.a.sh.beatRef) →
      (q.b.trace = p.b.trace → q.b.sh.beatRef = p.b.sh.beatRef) → Apart Ea Eb q

/-- How many Heartbeats, and how many answers to them, were received. -/
def heartbeats (l : List Rec) : Nat := (receives l).countP fun raw => meaning raw = some .heartbeat
def heartbeatAcks (l : List Rec) : Nat := (receives l).countP fun raw => meaning raw = some .heartbeatAck

end M3.Spec
