import Verif.Spec.Meaning
import Verif.Model.Conn.Sys

/- Specification: data races. -/

set_option autoImplicit false

namespace M3.Spec

open M3.Conn

/-- Variables that goroutines share and that are not channels, locks or condition variables: `c.state`, `c.cfg.HeartbeatInfo.Data` (the slice
header), and the 128 bytes that `heartbeat` fills and lets that slice point to. -/
inductive Cell where
  | state | beatRef | beatBuf
  deriving DecidableEq, Repr

/-- Which of them an operation reads (`false`) or writes (`true`). -/
def touches (sh : Shared) : Op → List (Cell × Bool)
  | .state | .getSt => [(.state, false)]
  | .putSt _ => [(.state, true)]
  | .rand => [(.beatBuf, true)]
  | .setBeat => [(.beatRef, true)]
  | .getBeat => (.beatRef, false) :: match sh.beatRef with
    | .own _ => []
    | .buf => [(.beatBuf, false)]
  | _ => []

/-- The operation of `heartbeat` that writes to a variable: `rand.Read(data)` or `c.cfg.HeartbeatInfo.Data = data`. -/
def beatWrite : Cell → Op
  | .beatBuf => .rand
  | _ => .setBeat

/-- Goroutine `i`, running `g`, can now perform `o`. -/
def CanDo (w : World) (i : Nat) (g : Gor) (o : Op) : Prop :=
  ∃ (e : List Ev) (k : Resp o → Prog (Option Gor)) (r : Resp o) (sh' : Shared),
    w.sh.crashed = false ∧ w.threads[i]? = some ⟨g, e, .op o k⟩ ∧ Exec w.sh o r sh'

/-- A data race: two goroutines can now access the same variable, and the first writes. -/
def Race (w : World) (c : Cell) (i j : Nat) : Prop :=
  i ≠ j ∧ ∃ (gi gj : Gor) (oi oj : Op) (b : Bool), CanDo w i gi oi ∧ CanDo w j gj oj ∧ (c, true) ∈ touches w.sh oi ∧ (c, b) ∈ touches w.sh oj

/-- Goroutine `i` is in `WriteToStream`, and the last thing it did with anything synchronised was to find the connection active. The code that it runs
from there to its next operation builds the DATA message: `messages.NewData` calls `SetLength` for each parameter it is given (`data.go:131-146`), so it
writes to those of the parameters `NetworkAppearance`, `RoutingContexts` and `CorrelationID` of the configuration that are not nil
(`conn.go:117-123`). -/
def Builds (w : World) (i : Nat) : Prop :=
  ∃ (b : List UInt8) (s : UInt16) (e : List Ev) (p : Prog (Option Gor)),
    w.threads[i]? = some ⟨.api (.writeToStream b s), e ++ [⟨.state, St.active⟩], p⟩

end M3.Spec
