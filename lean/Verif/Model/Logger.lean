/-
Model of `logger.go`: the package logger behind one mutex, used by any number of goroutines.
`sync.Mutex` is not reentrant: `Lock` blocks while the mutex is locked, whoever holds it.
-/

namespace M3
namespace Logger

/-- A `*log.Logger`: the package default, one passed by the user, or the one that `setLogger` makes for a
nil argument, `logger.go:54-56`, where the number tells the calls apart. -/
inductive Dest where
  | default
  | fresh (n : Nat)
  | user (id : Nat)
  deriving DecidableEq, Repr

/-- Exported entry points, and the internal `logf`. `none` is a nil argument. -/
inductive Call where
  | setLogger (l : Option Nat)
  | enableLogging (l : Option Nat)
  | disableLogging
  | logf (line : Nat)
  deriving DecidableEq, Repr

/-- Atomic operations. `assign none` is `log.New(...)` together with the assignment: before it is assigned,
nobody else sees the new logger. -/
inductive Instr where
  | lock
  | unlock
  | assign (l : Option Nat)
  | discard
  | print (line : Nat)
  deriving DecidableEq, Repr

/-- The operations of each function in program order; deferred unlocks come last.
`setLogger` 53-62, `SetLogger` 24-30 (the hint printed for nil goes to the standard logger and is
dropped), `EnableLogging` 37-42, `DisableLogging` 46-51, `logf` 63-68. -/
def setLoggerBody (l : Option Nat) : List Instr := [.lock, .assign l, .unlock]

def prog : Call → List Instr
  | .setLogger l => setLoggerBody l
  | .enableLogging l => .lock :: (setLoggerBody l ++ [.unlock])
  | .disableLogging => [.lock, .discard, .unlock]
  | .logf x => [.lock, .print x, .unlock]

/-- A call in progress. -/
structure Thread where
  call : Call
  pc : Nat
  deriving DecidableEq, Repr

/-- Has the call returned? -/
def Thread.returned (t : Thread) : Prop := (prog t.call).length ≤ t.pc

/-- Shared state: the mutex, the current logger, the number of loggers made so far, which loggers had
their output set to `io.Discard`, and the lines written so far. -/
structure St where
  locked : Bool
  cur : Dest
  made : Nat
  discarded : List Dest
  lines : List (Dest × Nat)
  threads : List Thread
  deriving Repr

/-- Package initialisation, `logger.go:14-17`. -/
def init : St := ⟨false, .default, 0, [], [], []⟩

/-- Effect of one operation; `none`: it blocks. -/
def exec : Instr → St → Option St
  | .lock, s => if s.locked then none else some { s with locked := true }
  | .unlock, s => some { s with locked := false }
  | .assign (some i), s => some { s with cur := .user i }
  | .assign none, s => some { s with cur := .fresh s.made, made := s.made + 1 }
  | .discard, s => some { s with discarded := s.cur :: s.discarded }
  | .print x, s => some (if s.cur ∈ s.discarded then s else { s with lines := s.lines ++ [(s.cur, x)] })

/-- One step: somebody makes a call, or a call in progress performs its next operation. -/
inductive Step : St → St → Prop
  | call (s : St) (c : Call) : Step s { s with threads := s.threads ++ [⟨c, 0⟩] }
  | exec (s s' : St) (i : Nat) (t : Thread) (op : Instr) :
      s.threads[i]? = some t → (prog t.call)[t.pc]? = some op → exec op s = some s' →
      Step s { s' with threads := s.threads.set i { t with pc := t.pc + 1 } }

/-- Reflexive-transitive closure. -/
inductive Steps : St → St → Prop
  | refl (s : St) : Steps s s
  | tail {s t u : St} : Steps s t → Step t u → Steps s u

end Logger
end M3
