import Verif.Model.Conn.Funcs

/- Meaning of the operations: goroutines interleaved one operation at a time over the shared variables
of a `Conn`, its channels, the mutex, the condition variable and the SCTP association. -/

namespace M3.Conn

/-- Where `c.cfg.HeartbeatInfo.Data` points: bytes nobody else holds, or the buffer `data` that
`heartbeat` refills in place (`asptm.go:31,42`). -/
inductive BeatRef where
  | own (b : Bytes)
  | buf

/-- The goroutine `heartbeat` as seen by `sync.Cond`: not (or no longer) waiting, waiting, or woken. -/
inductive Cond where
  | idle | waiting | woken
  deriving DecidableEq, Repr

/-- Shared state of one connection. -/
structure Shared where
  /-- `c.state` -/
  st : St
  /-- `c.muState` is held by a writer. (A reader holds it only inside the operation `state`.) -/
  locked : Bool
  estClosed : Bool
  ackClosed : Bool
  dataClosed : Bool
  /-- contents of `c.dataChan` -/
  dataQ : List ProtocolDataPayload
  /-- datagrams delivered to the host and not yet read -/
  inbox : List Bytes
  /-- `c.sctpConn.Close()` was called -/
  sctpClosed : Bool
  /-- the context given to `Dial` / `Accept` is done -/
  ctxDone : Bool
  /-- `*c.sctpInfo` -/
  info : Info
  beatRef : BeatRef
  /-- the 128-byte buffer of `heartbeat` -/
  beatBuf : Bytes
  cond : Cond
  /-- `Dial` / `Accept` received from `established`, so that the user gets the `*Conn` -/
  handed : Bool
  /-- the process died of a panic -/
  crashed : Bool

/-- Capacity of `c.dataChan`, `fsm.go:199`. -/
def dataCap : Nat := 0xffff

/-- `Exec sh o r sh'`: in `sh`, the operation `o` can complete on its own with result `r`. Operations
that are not listed here complete together with another goroutine (`Sync`) or not at all. -/
inductive Exec : Shared → (o : Op) → Resp o → Shared → Prop where
  | state {sh} : sh.locked = false → Exec sh .state sh.st sh
  | lock {sh} : sh.locked = false → Exec sh .lock () { sh with locked := true }
  | unlock {sh} : Exec sh .unlock () { sh with locked := false }
  | getSt {sh} : Exec sh .getSt sh.st sh
  | putSt {sh s} : Exec sh (.putSt s) () { sh with st := s }
  | sendData {sh pd} : sh.dataClosed = false → sh.dataQ.length < dataCap →
      Exec sh (.sendData pd) () { sh with dataQ := sh.dataQ ++ [pd] }
  | sendDataCtx {sh pd} : sh.ctxDone = true → Exec sh (.sendData pd) () sh
  | recvData {sh pd q} : sh.dataQ = pd :: q → Exec sh .recvData (some pd) { sh with dataQ := q }
  | recvDataClosed {sh} : sh.dataQ = [] → sh.dataClosed = true → Exec sh .recvData none sh
  | closeEst {sh} : sh.estClosed = false → Exec sh .closeEst () { sh with estClosed := true }
  | closeAck {sh} : sh.ackClosed = false → Exec sh .closeAck () { sh with ackClosed := true }
  | closeData {sh} : sh.dataClosed = false → Exec sh .closeData () { sh with dataClosed := true }
  | info {sh} : Exec sh .info sh.info sh
  /-- SCTP accepted the message and reports some number of bytes -/
  | write {sh b i n} : sh.sctpClosed = false → Exec sh (.write b i) (some n) sh
  /-- `SCTPWrite` may fail at any time -/
  | writeFail {sh b i} : Exec sh (.write b i) none sh
  /-- The next datagram fits the buffer. -/
  | read {sh n d q} : sh.sctpClosed = false → sh.inbox = d :: q → d.length ≤ n →
      Exec sh (.read n) (some d) { sh with inbox := q }
  /-- A longer message is read in parts: the rest stays in the socket. -/
  | readPart {sh n d q} : sh.sctpClosed = false → sh.inbox = d :: q → n < d.length →
      Exec sh (.read n) (some (d.take n)) { sh with inbox := d.drop n :: q }
  /-- `SCTPRead` may fail at any time: association lost or closed -/
  | readFail {sh n} : Exec sh (.read n) none sh
  | sctpClose {sh ok} : Exec sh .sctpClose ok { sh with sctpClosed := true }
  | ctxDone {sh} : Exec sh .ctxDone sh.ctxDone sh
  | monCtx {sh} : sh.ctxDone = true → Exec sh .monSelect .ctx sh
  | waitEnter {sh} : Exec sh .waitEnter () { sh with cond := .waiting }
  | waitLeave {sh} : sh.cond = .woken → Exec sh .waitLeave () { sh with cond := .idle }
  | broadcast {sh} : Exec sh .broadcast ()
      { sh with cond := match sh.cond with | .waiting => .woken | c => c }
  | ackCtx {sh} : sh.ctxDone = true → Exec sh .ackSelect .ctx sh
  | ackClosed {sh} : sh.ackClosed = true → Exec sh .ackSelect .closed sh
  /-- a timer may fire at any time here; see Timed.lean for the time -/
  | ackTimer {sh} : Exec sh .ackSelect .timer sh
  | sleepCtx {sh} : sh.ctxDone = true → Exec sh .sleepSelect true sh
  | sleepElapsed {sh} : Exec sh .sleepSelect false sh
  | rand {sh b} : b.length = 128 → Exec sh .rand (some b) { sh with beatBuf := b }
  | randFail {sh} : Exec sh .rand none sh
  | getBeat {sh} : Exec sh .getBeat (match sh.beatRef with | .own b => b | .buf => sh.beatBuf) sh
  | setBeat {sh} : Exec sh .setBeat () { sh with beatRef := .buf }
  | estClosedRecv {sh} : sh.estClosed = true → Exec sh .estSelect .closed sh
  | estTimeout {sh} : Exec sh .estSelect .timeout sh
  | intn {sh n r} : r < n → Exec sh (.intn n) r sh
  | spawn {sh g} : Exec sh (.spawn g) () sh
  | done {sh r} : Exec sh (.done r) () sh
  | opened {sh r} : Exec sh (.opened r) () sh

/-- `Sync sh o₁ r₁ o₂ r₂ sh'`: a send on an unbuffered channel meets a receive. -/
inductive Sync : Shared → (o₁ : Op) → Resp o₁ → (o₂ : Op) → Resp o₂ → Shared → Prop where
  | state {sh s} : Sync sh (.sendState s) () .monSelect (.state s) sh
  | err {sh e} : Sync sh (.sendErr e) () .monSelect (.err e) sh
  | est {sh} : sh.estClosed = false → Sync sh .sendEst () .estSelect .ok { sh with handed := true }
  | ack {sh} : sh.ackClosed = false → Sync sh .sendAck () .ackSelect .ack sh

/-- `Crashes sh o`: in `sh`, the operation `o` panics. -/
inductive Crashes : Shared → Op → Prop where
  /-- nil dereference and the like -/
  | crash {sh} : Crashes sh .crash
  /-- send on a closed channel, also when the channel is closed while the sender waits -/
  | sendEst {sh} : sh.estClosed = true → Crashes sh .sendEst
  | sendAck {sh} : sh.ackClosed = true → Crashes sh .sendAck
  | sendData {sh pd} : sh.dataClosed = true → Crashes sh (.sendData pd)
  /-- close of a closed channel -/
  | closeEst {sh} : sh.estClosed = true → Crashes sh .closeEst
  | closeAck {sh} : sh.ackClosed = true → Crashes sh .closeAck
  | closeData {sh} : sh.dataClosed = true → Crashes sh .closeData

/-- A completed operation with its result. -/
structure Ev where
  op : Op
  resp : Resp op

/-- An entry of the trace: goroutine `tid`, executing the code of `gor`, completed an operation. -/
structure Rec where
  tid : Nat
  gor : Gor
  ev : Ev

/-- A goroutine: what it is executing, what it has done since it entered that code, and what is left. -/
structure Thread where
  gor : Gor
  hist : List Ev
  prog : Prog (Option Gor)

/-- A connection at run time. Finished goroutines stay in the list, so the position of a goroutine
identifies it. `trace` lists all completed operations, oldest first, with the goroutine. -/
structure World where
  sh : Shared
  threads : List Thread
  trace : List Rec

/-- A goroutine about to start. -/
def Thread.fresh (E : Env) (g : Gor) : Thread := ⟨g, [], body E g⟩

/-- Goroutines started by an operation. -/
def spawned : Op → List Gor
  | .spawn g => [g]
  | _ => []

/-- State just after the SCTP association is up, in `Dial` or `Accept`: the three goroutines of
`client.go:50-55` / `server.go:75-80`. -/
def init (E : Env) : World where
  sh := {
    st := .down, locked := false, estClosed := false, ackClosed := false, dataClosed := false,
    dataQ := [], inbox := [], sctpClosed := false, ctxDone := false, info := ⟨3, 0⟩,
    beatRef := .own E.hb.data, beatBuf := List.replicate 128 0, cond := .idle, handed := false,
    crashed := false }
  threads := [Thread.fresh E .main, Thread.fresh E .start, Thread.fresh E .monitor]
  trace := []

/-- What can happen outside the library. -/
inductive EnvStep : Shared → Shared → Prop where
  /-- a datagram arrives -/
  | deliver {sh} (d : Bytes) : EnvStep sh { sh with inbox := sh.inbox ++ [d] }
  /-- the user cancels the context -/
  | cancel {sh} : EnvStep sh { sh with ctxDone := true }
  /-- another connection of the same `Listener` stores its own beat in the shared `HeartbeatInfo` -/
  | otherBeat {sh} (b : Bytes) : EnvStep sh { sh with beatRef := .own b }

/-- One step of a connection. -/
inductive Step (E : Env) : World → World → Prop where
  | env {w sh'} : w.sh.crashed = false → EnvStep w.sh sh' → Step E w { w with sh := sh' }
  /-- the user calls a method from some goroutine, after `Dial` / `Accept` returned -/
  | call {w} (c : Api) : w.sh.crashed = false → w.sh.handed = true →
      Step E w { w with threads := w.threads ++ [Thread.fresh E (.api c)] }
  /-- goroutine `i` completes an operation -/
  | run {w sh'} (i : Nat) (g : Gor) (h : List Ev) (o : Op) (k : Resp o → Prog (Option Gor)) (r : Resp o) :
      w.sh.crashed = false → w.threads[i]? = some ⟨g, h, .op o k⟩ → Exec w.sh o r sh' →
      Step E w ⟨sh', w.threads.set i ⟨g, h ++ [⟨o, r⟩], k r⟩ ++ (spawned o).map (Thread.fresh E),
        w.trace ++ [⟨i, g, o, r⟩]⟩
  /-- goroutine `i` sends to goroutine `j` -/
  | sync {w sh'} (i j : Nat) (gi gj : Gor) (hi hj : List Ev) (oi oj : Op)
      (ki : Resp oi → Prog (Option Gor)) (kj : Resp oj → Prog (Option Gor)) (ri : Resp oi) (rj : Resp oj) :
      w.sh.crashed = false → i ≠ j → w.threads[i]? = some ⟨gi, hi, .op oi ki⟩ →
      w.threads[j]? = some ⟨gj, hj, .op oj kj⟩ → Sync w.sh oi ri oj rj sh' →
      Step E w ⟨sh', (w.threads.set i ⟨gi, hi ++ [⟨oi, ri⟩], ki ri⟩).set j ⟨gj, hj ++ [⟨oj, rj⟩], kj rj⟩,
        w.trace ++ [⟨i, gi, oi, ri⟩, ⟨j, gj, oj, rj⟩]⟩
  /-- goroutine `i` goes to the next loop head -/
  | loop {w} (i : Nat) (g g' : Gor) (h : List Ev) :
      w.sh.crashed = false → w.threads[i]? = some ⟨g, h, .ret (some g')⟩ →
      Step E w { w with threads := w.threads.set i (Thread.fresh E g') }
  /-- goroutine `i` panics -/
  | crash {w} (i : Nat) (g : Gor) (h : List Ev) (o : Op) (k : Resp o → Prog (Option Gor)) :
      w.sh.crashed = false → w.threads[i]? = some ⟨g, h, .op o k⟩ → Crashes w.sh o →
      Step E w { w with sh := { w.sh with crashed := true } }

/-- Any number of steps. -/
inductive Steps (E : Env) : World → World → Prop where
  | refl (w : World) : Steps E w w
  | tail {a b c : World} : Steps E a b → Step E b c → Steps E a c

/-- Reachable from the start of a connection. -/
def Reachable (E : Env) (w : World) : Prop := Steps E (init E) w

end M3.Conn
