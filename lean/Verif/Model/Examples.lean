import Verif.Model.Config
import Verif.Model.Message
import Verif.Model.Pc

/-
The programs in `examples/` and the entry points for fuzzing. Flags are given by their values (package `flag` is not modelled), the text of log lines by what is
put into it.
-/

set_option autoImplicit false

namespace M3.Examples

/-- `log.Printf("PC successfully converted...", p.Uint32(), p.String(), p.Variant())`, `examples/pc-conv/main.go:25,33`. -/
structure Line where
  raw : BitVec 32
  formatted : Bytes
  variant : Bytes
  deriving DecidableEq, Repr

/-- How the program ends. -/
inductive Exit where
  | success
  /-- `log.Fatal`, `main.go:20`: neither flag is given -/
  | required
  /-- `log.Fatalf`, `main.go:30`: no dash in the point code -/
  | unsplit
  /-- nil pointer dereference -/
  | panic
  deriving DecidableEq, Repr

/-- The log line for a point code, or a panic if it is nil: `main.go:25,33`. -/
def report : Option Pc.PointCode → List Line × Exit
  | none => ([], .panic)
  | some p => ([⟨p.uint32, p.string, p.variant⟩], .success)

/-- `main.go:23-26`. -/
def fromRaw (raw : Int) (variant : Bytes) : List Line × Exit :=
  if raw > 0 then report (Pc.newPointCode (BitVec.ofInt 32 raw) variant) else ([], .success)

/-- `main.go:28-34`. -/
def fromStr (str variant : Bytes) : List Line × Exit :=
  if str ≠ [] then
    if (Pc.split str).length < 2 then ([], .unsplit) else report (Pc.newPointCodeFrom str variant)
  else ([], .success)

/-- `main` of `examples/pc-conv/main.go:11-35`. -/
def pcConv (raw : Int) (str variant : Bytes) : List Line × Exit :=
  if raw < 0 ∧ str = [] then ([], .required)
  else
    match fromRaw raw variant with
    | (l, .success) => (l ++ (fromStr str variant).1, (fromStr str variant).2)
    | r => r

/-- `Fuzz` of `messages/params/fuzz.go:14-24`. -/
def fuzzParams (data : Bytes) : Res Nat :=
  match Param.parse data with
  | .err _ => .ok 0
  | .panic => .panic
  | .diverge => .diverge
  | .ok _ =>
    match parseMultiParams data with
    | .err _ => .ok 0
    | .panic => .panic
    | .diverge => .diverge
    | .ok _ => .ok 1

/-- `Fuzz` of `messages/fuzz.go:14-20`. -/
def fuzzMessages (data : Bytes) : Res Nat :=
  match M3UA.parse data with
  | .err _ => .ok 0
  | .panic => .panic
  | .diverge => .diverge
  | .ok _ => .ok 1

/-- The configuration of `examples/client/m3ua-client.go:38-51`. Durations are in nanoseconds. -/
def clientConfig (hbInt : Int) : Config :=
  ((((Config.new 0x11111111 0x22222222 3 0 0 1).enableHeartbeat hbInt 10000000000).setAspIdentifier 1).setTrafficModeType 2).setNetworkAppearance 0
    |>.setRoutingContexts [1, 2]

/-- The other way to make it, in the comment at `examples/client/m3ua-client.go:53-74`, and in `README.md:56-75` with `hbInt` 3 seconds. -/
def otherClientConfig (hbInt : Int) : Config :=
  { Config.newClient (some ⟨true, hbInt, 10000000000, []⟩) 0x11111111 0x22222222 1 2 0 0 [1, 2] 3 0 0 1 with correlationID := none }

/-- The configuration of `examples/server/m3ua-server.go:53-73`. -/
def serverConfig (hbInt hbTimer : Int) : Config :=
  { Config.newServer (some ⟨true, hbInt, hbTimer, []⟩) 0x22222222 0x11111111 1 2 0 0 [1, 2] 3 0 0 1 with aspIdentifier := none, correlationID := none }

end M3.Examples
