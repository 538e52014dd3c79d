import Verif.Model.Conn.Sys

/- Time. `Verif.Model.Conn.Sys` lets every timer fire at any time. Here a clock is added to it: each completed operation gets the
time at which it was completed, and `time.After(d)` does not fire before `d` has passed. Nothing is assumed about how late a
timer fires or how long the goroutines take, so every statement about this model is a lower bound on time. -/

set_option autoImplicit false

namespace M3.Conn

/-- `10 * time.Second` in nanoseconds, `client.go:62`, `server.go:87`. -/
def tenSeconds : Int := 10000000000

/-- The duration given to the `time.After` whose channel completes this operation, if there is one: `asptm.go:54`
(`HeartbeatInfo.Timer`), `asptm.go:63` (`HeartbeatInfo.Interval`), `client.go:62` / `server.go:87`. -/
def Ev.after? (E : Env) : Ev → Option Int
  | ⟨.ackSelect, .timer⟩ => some E.hb.timer
  | ⟨.sleepSelect, false⟩ => some E.hb.interval
  | ⟨.estSelect, .timeout⟩ => some tenSeconds
  | _ => none

/-- A connection with a clock (nanoseconds since the SCTP association was up); `log` is the trace with the time of each entry. -/
structure Timed where
  w : World
  now : Nat
  log : List (Rec × Nat)

/-- When goroutine `i` completed its last operation (0 if it has not completed any). What it does next, it begins not earlier
than that; in particular a `select` creates its timer not earlier. -/
def lastOf (log : List (Rec × Nat)) (i : Nat) : Nat :=
  match (log.filter fun p => p.1.tid == i).getLast? with
  | some p => p.2
  | none => 0

/-- When the association is up the clock is started. -/
def Timed.init (E : Env) : Timed := ⟨Conn.init E, 0, []⟩

inductive Timed.Step (E : Env) : Timed → Timed → Prop where
  /-- time passes -/
  | wait {t : Timed} (d : Nat) : Timed.Step E t { t with now := t.now + d }
  /-- a step of the connection; a timer that completes an operation was created after the goroutine's last operation and has
  run for its duration -/
  | act {t : Timed} {w' : World} {l : List Rec} : Conn.Step E t.w w' → w'.trace = t.w.trace ++ l →
      (∀ x ∈ l, ∀ d, x.ev.after? E = some d → lastOf t.log x.tid + d ≤ t.now) →
      Timed.Step E t ⟨w', t.now, t.log ++ l.map fun x => (x, t.now)⟩

/-- All executions with a clock. -/
inductive Timed.Reachable (E : Env) : Timed → Prop where
  | init : Timed.Reachable E (Timed.init E)
  | step {t t' : Timed} : Timed.Reachable E t → Timed.Step E t t' → Timed.Reachable E t'

end M3.Conn
