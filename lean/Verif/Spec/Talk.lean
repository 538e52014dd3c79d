import Verif.Spec.Session
import Verif.Model.Conn.Calm
import Verif.Props.Conn.Calls

/- Specification: two endpoints that are not disturbed go on until they come to rest. -/

set_option autoImplicit false

namespace M3.Spec

open M3.Conn

/-- The datagrams that have arrived, read or not. -/
def arrived (w : World) : List (List UInt8) := receives w.trace ++ w.sh.inbox

/-- Nothing disturbs the two ends, and nothing has overtaken the two messages of the handshake. -/
structure Smooth (p : Link) : Prop where
  a : Peaceful p.a
  b : Peaceful p.b
  toB : (arrived p.b).take 2 <+: p.a.out
  toA : (arrived p.a).take 2 <+: p.b.out

/-- `n` steps without disturbances and without new calls. -/
inductive Smoothly (Ea Eb : Env) : Nat → Link → Link → Prop where
  | refl (p : Link) : Smoothly Ea Eb 0 p p
  | tail {n : Nat} {p q r : Link} : Smoothly Ea Eb n p q → Link.Work Ea Eb q r → Smooth r → Smoothly Ea Eb (n + 1) p r

/-- No such step is possible. -/
def Stopped (Ea Eb : Env) (p : Link) : Prop := ∀ q, Link.Work Ea Eb p q → ¬ Smooth q

/-- The user only calls `Write`, `WriteToStream` and methods that transmit nothing and do not close the connection, and writes no more at once
than fits into a datagram of 1500 bytes. -/
def Writer (cfg : Config) (w : World) : Prop := ∀ t ∈ w.threads, match t.gor with
  | .api (.write b) | .api (.writeToStream b _) => 12 + b.length ≤ maxValue ∧ (dataOf cfg b).length ≤ 1500
  | .api (.writePD _) | .api (.writePDToStream ..) | .api (.writeSignal _) | .api .close => False
  | _ => True

/-- The call is one of `Write(b)` or `WriteToStream(b, s)` for some `s`. -/
def writing (b : List UInt8) : Gor → Bool
  | .api (.write b') | .api (.writeToStream b' _) => b' = b
  | _ => false

end M3.Spec
