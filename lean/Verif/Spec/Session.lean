import Verif.Spec.Flow
import Verif.Model.Conn.Link

/- Specification of a session without disturbances: the peer opens it as RFC 4666 (4.3, 5) prescribes and then sends
DATA; SCTP works; nobody closes the connection. -/

set_option autoImplicit false

namespace M3.Spec

open M3.Conn

/-- What the peer may send as datagram number `i`, counted from 0. -/
def expectedAt (m : Mode) (i : Nat) (raw : List UInt8) : Prop :=
  match i with
  | 0 => meaning raw = some (match m with | .client => .aspUpAck | .server => .aspUp)
  | 1 => meaning raw = some (match m with | .client => .aspActiveAck | .server => .aspActive)
  | _ => (∃ pd, carries raw pd) ∨ meaning raw = some .heartbeat ∨ meaning raw = some .error ∨ meaning raw = some .notify

/-- The datagrams come as expected. -/
def Orderly (m : Mode) (l : List (List UInt8)) : Prop := ∀ i raw, l[i]? = some raw → expectedAt m i raw

/-- Nothing has gone wrong outside the library: the context is not done, the peer has behaved, the user has not called `Close`,
and for the library's own goroutines SCTP and random numbers have worked and no timer has expired. -/
structure Undisturbed (m : Mode) (w : World) : Prop where
  ctx : w.sh.ctxDone = false
  peer : Orderly m (receives w.trace)
  user : ∀ x ∈ w.trace, x.gor ≠ .api .close
  calm : ∀ x ∈ w.trace, ofUser x.gor = false → x.ev.calm = true

/-- The state after the given number of datagrams. -/
def stageAt : Nat → St
  | 0 => .down
  | 1 => .inactive
  | _ => .active

/-- Every goroutine that handles a datagram or a DATA message has ended, and the monitor is not about to start one. -/
def Settled (w : World) : Prop :=
  ∀ t ∈ w.threads, ∀ o k, t.prog = .op o k → (∀ b, t.gor ≠ .packet b) ∧ (∀ m, t.gor ≠ .data m) ∧ ∀ b, o ≠ .spawn (.packet b)

/-- Whatever can still happen without a disturbance and without a datagram arriving is an operation of a method the user has called:
the library's own goroutines have nothing to do. -/
def Idle (E : Env) (w : World) : Prop :=
  ∀ w', Work E w w' → ∃ x, w'.trace = w.trace ++ [x] ∧ ofUser x.gor = true

/-- Nothing disturbs the connection apart from its peer: the context is not done, the user has not called `Close` and has only sent payloads,
in datagrams of at most 1500 bytes, and for the library's own goroutines SCTP and random numbers have worked and no timer has expired. -/
structure Peaceful (w : World) : Prop where
  ctx : w.sh.ctxDone = false
  user : ∀ x ∈ w.trace, x.gor ≠ .api .close
  calm : ∀ x ∈ w.trace, ofUser x.gor = false → x.ev.calm = true
  talk : ∀ x ∈ w.trace, ofUser x.gor = true → ∀ s, sent? x.ev = some s → s.bytes.length ≤ 1500 ∧ ∃ pd, carries s.bytes pd

/-- The two messages of the handshake were not overtaken: in each direction the first two datagrams received are, in this order, the first two
that were sent. The others may arrive in any order. -/
def InOrder (p : Link) : Prop :=
  (receives p.b.trace).take 2 <+: p.a.out ∧ (receives p.a.trace).take 2 <+: p.b.out

end M3.Spec
