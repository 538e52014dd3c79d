import Verif.Model.Conn.Setup

/- A server that calls `Accept` again and again, as `main` of `examples/server/m3ua-server.go` does. -/

set_option autoImplicit false

namespace M3.Conn

/-- Where the loop is: in a call of `Accept` that has not returned, or the program has ended. -/
inductive LoopEnd where
  /-- `Accept` has not returned -/
  | waiting
  /-- `log.Fatalf`, `examples/server/m3ua-server.go:94`, which ends the process with all its connections -/
  | fatal (e : GoErr)
  /-- nil pointer dereference in `Accept` -/
  | panic

/-- The loop of `examples/server/m3ua-server.go:91-99` from its call number `n` of `Accept` on: the connections it got, each at some time after `Accept` returned
it, and where it is. `cfg n` is what is in the configuration of the listener at call number `n`: it is shared, so `Accept` and the connections may have changed
it. `S n` is how SCTP behaves in call number `n`. -/
inductive AcceptLoop (cfg : Nat → Option Config) (S : Nat → Sctp) : Nat → List World → LoopEnd → Prop where
  | waiting (n : Nat) : AcceptLoop cfg S n [] .waiting
  | next {n : Nat} {w : World} {ws : List World} {r : LoopEnd} : (accept (S n) (cfg n)).1.Returns .conn (some w) → AcceptLoop cfg S (n + 1) ws r →
      AcceptLoop cfg S n (w :: ws) r
  | fatal {n : Nat} {e : GoErr} {w : Option World} : (accept (S n) (cfg n)).1.Returns (.error e) w → AcceptLoop cfg S n [] (.fatal e)
  | panic {n : Nat} {w : Option World} : (accept (S n) (cfg n)).1.Returns .panic w → AcceptLoop cfg S n [] .panic

end M3.Conn
