import Verif.Spec.Session
import Verif.Props.Conn.Compared

/- Specification of a session with heartbeats: the peer of `Spec.Undisturbed` also answers the heartbeats of the library, each one once. -/

set_option autoImplicit false

namespace M3.Spec

open M3.Conn

/-- The data of a Heartbeat Ack. -/
def ackData (raw : List UInt8) : Option (List UInt8) :=
  match meaning raw, M3UA.parse raw with
  | some .heartbeatAck, .ok (.heartbeatAck m) => m.heartbeatData.map Param.data
  | _, _ => none

/-- What the peer may send as datagram number `i`: as in `expectedAt`, or an answer to a heartbeat. -/
def expectedOrAck (m : Mode) (i : Nat) (raw : List UInt8) : Prop :=
  expectedAt m i raw ∨ (2 ≤ i ∧ meaning raw = some .heartbeatAck)

/-- The library has sent a heartbeat and stored its data, and has not received a Heartbeat Ack since. -/
def awaiting (l : List Rec) : Bool :=
  l.foldl (fun a x => match x.ev with
    | ⟨.setBeat, _⟩ => true
    | ⟨.read _, some raw⟩ => a && decide (meaning raw ≠ some .heartbeatAck)
    | _ => a) false

/-- Each Heartbeat Ack answers the last heartbeat with its data, as the first one after these data were stored. -/
def InStep (l : List Rec) : Prop :=
  ∀ l₁ x l₂ n raw, l = l₁ ++ x :: l₂ → x.ev = ⟨.read n, some raw⟩ → meaning raw = some .heartbeatAck →
    awaiting l₁ = true ∧ ∃ d, drawn l₁ = some d ∧ ackData raw = some d

/-- Nothing has gone wrong outside the library, as in `Undisturbed`, but the peer may also have answered heartbeats. -/
structure Attended (m : Mode) (w : World) : Prop where
  ctx : w.sh.ctxDone = false
  peer : ∀ i raw, (receives w.trace)[i]? = some raw → expectedOrAck m i raw
  acks : InStep w.trace
  user : ∀ x ∈ w.trace, x.gor ≠ .api .close
  calm : ∀ x ∈ w.trace, ofUser x.gor = false → x.ev.calm = true

/-- How many heartbeats the library has sent, up to storing the data. -/
def stores (l : List Rec) : Nat := l.countP fun x => x.ev.op = .setBeat

end M3.Spec
