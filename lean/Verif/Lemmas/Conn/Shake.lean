import Verif.Model.Conn.Pair

/- An abstraction of two connected endpoints during the handshake: for each goroutine, only how many operations of
a fixed list it has completed. `Verif.Lemmas.Conn.ShakeSim` shows that it covers all executions, and
`Verif.Lemmas.Conn.ShakeCheck` goes through all its states. -/

set_option autoImplicit false

namespace M3.Conn.Shake

/-- The four messages. -/
inductive Sig where
  | up | upAck | act | actAck
  deriving DecidableEq

/-- Operations and, where it matters, their results. -/
inductive Tok where
  | lock | unlock
  | getSt (s : St) | putSt (s : St)
  | info | write (m : Sig) | read (m : Sig)
  /-- `read` without a datagram to come -/
  | idle
  /-- start goroutine number `n` -/
  | spawn (n : Nat)
  | sendSt (s : St) | recvSt (s : St)
  | ctx | state (s : St)
  | sendEst | recvEst | broadcast | opened | waitEnter | waitLeave
  /-- go to the next loop head -/
  | loop
  deriving DecidableEq

/-- What the goroutines do: 0 is `Dial` / `Accept`, 1 the one that starts, 2 the monitor, 3 heartbeat, 4 and 5 the
handlers of the two received messages. -/
def script : Mode → Nat → List Tok
  | _, 0 => [.recvEst, .opened]
  | _, 1 => [.sendSt .down]
  | .client, 2 => [.spawn 3, .loop, .recvSt .down, .lock, .getSt .down, .putSt .down, .info, .write .up, .unlock, .read .upAck,
      .spawn 4, .loop, .recvSt .inactive, .lock, .getSt .down, .putSt .inactive, .info, .write .act, .unlock, .read .actAck,
      .spawn 5, .loop, .recvSt .active, .lock, .getSt .inactive, .putSt .active, .sendEst, .broadcast, .unlock, .idle]
  | .server, 2 => [.spawn 3, .loop, .recvSt .down, .lock, .getSt .down, .putSt .down, .unlock, .read .up,
      .spawn 4, .loop, .recvSt .inactive, .lock, .getSt .down, .putSt .inactive, .unlock, .read .act,
      .spawn 5, .loop, .recvSt .active, .lock, .getSt .inactive, .putSt .active, .sendEst, .broadcast, .unlock, .idle]
  | _, 3 => [.waitEnter, .waitLeave]
  | .client, 4 => [.ctx, .state .down, .info, .sendSt .inactive]
  | .client, 5 => [.ctx, .state .inactive, .sendSt .active]
  | .server, 4 => [.ctx, .state .down, .info, .info, .write .upAck, .sendSt .inactive]
  | .server, 5 => [.ctx, .state .inactive, .info, .write .actAck, .sendSt .active]
  | _, _ => []

/-- What an endpoint sends. -/
def outSigs : Mode → List Sig
  | .client => [.up, .act]
  | .server => [.upAck, .actAck]

/-- One endpoint: the shared variables that matter, how far the goroutines are, how many messages were sent, how
often `Dial` / `Accept` returned. -/
structure A where
  st : St
  locked : Bool
  handed : Bool
  cond : Cond
  inbox : List Sig
  pcs : List Nat
  sent : Nat
  opened : Nat
  deriving DecidableEq

def A.init : A := ⟨.down, false, false, .idle, [], [0, 0, 0], 0, 0⟩

/-- What goroutine `i` does next. -/
def tok? (m : Mode) (i pc : Nat) : Option Tok := (script m i)[pc]?

/-- `t` can complete on its own; the list has at most one element, `none` stands for something unforeseen. -/
def runT (m : Mode) (a : A) (i pc : Nat) (t : Tok) : List (Option A) :=
  let a' := { a with pcs := a.pcs.set i (pc + 1) }
  match t with
  | .lock => if a.locked then [] else [some { a' with locked := true }]
  | .unlock => [some { a' with locked := false }]
  | .getSt s => if a.st = s then [some a'] else [none]
  | .putSt s => [some { a' with st := s }]
  | .info => [some a']
  | .write x => if (outSigs m)[a.sent]? = some x then [some { a' with sent := a.sent + 1 }] else [none]
  | .read x =>
    match a.inbox with
    | [] => []
    | y :: q => if x = y then [some { a' with inbox := q }] else [none]
  | .idle =>
    match a.inbox with
    | [] => []
    | _ => [none]
  | .spawn n => if a.pcs.length = n then [some { a' with pcs := a.pcs.set i (pc + 1) ++ [0] }] else [none]
  | .ctx => [some a']
  | .state s => if a.locked then [] else if a.st = s then [some a'] else [none]
  | .broadcast => [some { a' with cond := match a.cond with | .waiting => .woken | c => c }]
  | .opened => [some { a' with opened := a.opened + 1 }]
  | .waitEnter => [some { a' with cond := .waiting }]
  | .waitLeave => if a.cond = .woken then [some { a' with cond := .idle }] else []
  | .loop => [some a']
  | .sendSt _ | .recvSt _ | .sendEst | .recvEst => []

/-- `ti` and `tj` can complete together. -/
def syncT (a : A) (i pi : Nat) (ti : Tok) (j pj : Nat) (tj : Tok) : List (Option A) :=
  match ti, tj with
  | .sendSt s, .recvSt s' => if s = s' then [some { a with pcs := (a.pcs.set i (pi + 1)).set j (pj + 1) }] else [none]
  | .sendEst, .recvEst => [some { a with pcs := (a.pcs.set i (pi + 1)).set j (pj + 1), handed := true }]
  | _, _ => []

def syncs (m : Mode) (a : A) (i pi : Nat) (ti : Tok) : Nat → List Nat → List (Option A)
  | _, [] => []
  | j, pj :: l =>
    match tok? m j pj with
    | none => syncs m a i pi ti (j + 1) l
    | some tj => syncT a i pi ti j pj tj ++ syncs m a i pi ti (j + 1) l

def Tok.sends : Tok → Bool
  | .sendSt _ => true
  | .sendEst => true
  | _ => false

def succsFrom (m : Mode) (a : A) : Nat → List Nat → List (Option A)
  | _, [] => []
  | i, pc :: l =>
    match tok? m i pc with
    | none => succsFrom m a (i + 1) l
    | some t => (if t.sends then syncs m a i pc t 0 a.pcs else runT m a i pc t) ++ succsFrom m a (i + 1) l

/-- The successors of a state. -/
def succs (m : Mode) (a : A) : List (Option A) := succsFrom m a 0 a.pcs

/-- Both endpoints and the messages under way. -/
structure P where
  c : A
  s : A
  toS : List Sig
  toC : List Sig
  deriving DecidableEq

def P.init : P := ⟨.init, .init, [], []⟩

/-- The successors of a state. -/
def psuccs (p : P) : List (Option P) :=
  ((succs .client p.c).map fun o => o.map fun c =>
    { p with c := c, toS := p.toS ++ ((outSigs .client).take c.sent).drop p.c.sent }) ++
  ((succs .server p.s).map fun o => o.map fun s =>
    { p with s := s, toC := p.toC ++ ((outSigs .server).take s.sent).drop p.s.sent }) ++
  (match p.toS with
    | [] => []
    | x :: q => [some { p with toS := q, s := { p.s with inbox := p.s.inbox ++ [x] } }]) ++
  (match p.toC with
    | [] => []
    | x :: q => [some { p with toC := q, c := { p.c with inbox := p.c.inbox ++ [x] } }])

/-- Both endpoints are active, sent everything and returned from `Dial` / `Accept`. -/
def P.final (p : P) : Bool :=
  p.c.st = .active && p.s.st = .active && p.c.opened = 1 && p.s.opened = 1 && p.c.sent = 2 && p.s.sent = 2 &&
  p.toS = [] && p.toC = [] && p.c.inbox = [] && p.s.inbox = [] && !p.c.locked && !p.s.locked

/-- No unforeseen successor, and at least one unless the handshake is complete; client and server take turns. -/
def P.good (p : P) (l : List (Option P)) : Bool :=
  l.all Option.isSome && (!l.isEmpty || p.final) && Nat.ble p.s.sent p.c.sent && Nat.ble p.c.sent (p.s.sent + 1)

end M3.Conn.Shake
