import Verif.Model.Message
import Verif.Model.ParamKinds
import Verif.Model.Config

/-
A small language for the code of `Conn`: every access to state shared between goroutines, every channel
operation, every SCTP call, clock and random number is an *operation*; everything in between is pure
Lean. A goroutine is a tree of operations (`Prog`). `Verif.Model.Conn.Sys` gives operations their meaning.
-/

namespace M3.Conn

/-- `State`, `fsm.go:17-26`. Go's `State` is a `uint8`; the library uses no other values. -/
inductive St where
  | down | inactive | active | cdi | ri
  deriving DecidableEq, Repr

/-- `mode`, `conn.go:19-24`. -/
inductive Mode where
  | client | server
  deriving DecidableEq, Repr

/-- `sctp.SndRcvInfo`, the two fields that the library sets (`client.go:26`, `server.go:49`). -/
structure Info where
  ppid : UInt32
  stream : UInt16
  deriving DecidableEq, Repr

/-- Errors of the `m3ua` package, `errors.go:16-132`, and those it passes on. -/
inductive CErr where
  | invalidVersion (ver : UInt8)
  | unsupportedClass (m : M3UA)
  | unsupportedMessage (m : M3UA)
  | unexpectedMessage (m : M3UA)
  | invalidStream (id : UInt16)
  | aspIDRequired
  | heartbeatExpired
  | failedToPeelOff
  | failedToWriteSignal
  | notEstablished
  | sctpNotAlive
  | invalidState
  /-- an error of `SCTPWrite`, possibly wrapped by `WriteSignal` (`conn.go:189-191`) -/
  | sctp
  /-- a marshalling error, possibly wrapped by `WriteSignal` (`conn.go:178-180`) -/
  | marshal (e : Err)
  /-- an error of `crypto/rand.Read` -/
  | rand
  deriving DecidableEq, Repr

/-- Calls a user can make on a `*Conn` (`conn.go`); the address and deadline methods, which only
forward to SCTP, are left out. For `Read` the argument is the length of the buffer. -/
inductive Api where
  | read (len : Nat)
  | readPD
  | write (b : Bytes)
  | writeToStream (b : Bytes) (stream : UInt16)
  | writePD (pd : Option Param)
  | writePDToStream (pd : Option Param) (stream : UInt16)
  | writeSignal (m : M3UA)
  | close
  | state
  | streamID
  | maxMessageStreamID
  deriving DecidableEq, Repr

/-- What a call returns. -/
inductive ApiRes where
  /-- `Read`: the count, and the bytes that were copied into the buffer -/
  | data (n : Nat) (copied : Bytes)
  | pd (p : ProtocolDataPayload)
  | wrote (n : Nat)
  | fail (e : CErr)
  | closed (ok : Bool)
  | state (s : St)
  | stream (n : UInt16)
  deriving DecidableEq, Repr

/-- How `Dial` or `Accept` ends after the SCTP association is up. -/
inductive OpenRes where
  | conn | failedToEstablish | timeout
  deriving DecidableEq, Repr

/-- Entry points of goroutines, and loop heads. -/
inductive Gor where
  /-- the goroutine that called `Dial` / `Accept`, from the `select` on `established` on -/
  | main
  /-- `go func() { conn.stateChan <- StateAspDown }()`, `client.go:50-52`, `server.go:75-77` -/
  | start
  /-- `go conn.monitor(ctx)`, `client.go:54`, `server.go:79` -/
  | monitor
  /-- the `for` loop of `monitor`, `fsm.go:208` -/
  | monitorLoop
  /-- `go c.heartbeat(ctx)`, `fsm.go:204` -/
  | heartbeat
  /-- the `for` loop of `heartbeat`, `asptm.go:33` -/
  | beatLoop
  /-- the goroutine that parses and handles one received datagram, `fsm.go:237-246` -/
  | packet (raw : Bytes)
  /-- `go c.handleData(ctx, msg)`, `fsm.go:124` -/
  | data (m : Msg.Data)
  /-- a goroutine of the user calling the API -/
  | api (c : Api)
  deriving DecidableEq, Repr

/-- Result of the `select` of `monitor`, `fsm.go:209-247`. -/
inductive MonEv where
  | ctx
  | err (e : CErr)
  | state (s : St)
  deriving DecidableEq, Repr

/-- Result of the first `select` of `heartbeat`, `asptm.go:45-56`. -/
inductive AckEv where
  | ctx | ack | closed | timer
  deriving DecidableEq, Repr

/-- Result of the `select` of `Dial` and `Accept`, `client.go:55-65`, `server.go:80-90`. -/
inductive EstEv where
  | ok | closed | timeout
  deriving DecidableEq, Repr

/-- Operations. -/
inductive Op where
  /-- `c.State()`, `conn.go:239-243`: `RLock`, read, `RUnlock` -/
  | state
  /-- `c.muState.Lock()` -/
  | lock
  /-- `c.muState.Unlock()` -/
  | unlock
  /-- reading `c.state` with the lock held -/
  | getSt
  /-- `c.state = s` with the lock held -/
  | putSt (s : St)
  /-- `c.stateChan <- s` -/
  | sendState (s : St)
  /-- `c.errChan <- e` -/
  | sendErr (e : CErr)
  /-- `c.established <- struct{}{}` -/
  | sendEst
  /-- `c.beatAckChan <- struct{}{}` -/
  | sendAck
  /-- `select { case c.dataChan <- pd: ... case <-ctx.Done(): ... }`; both branches return -/
  | sendData (pd : ProtocolDataPayload)
  /-- `pd, ok := <-c.dataChan` -/
  | recvData
  | closeEst
  | closeAck
  | closeData
  /-- reading `*c.sctpInfo` -/
  | info
  /-- `c.sctpConn.SCTPWrite(b, &info)` -/
  | write (b : Bytes) (info : Info)
  /-- `c.sctpConn.SCTPRead(buf)` with a buffer of `n` bytes -/
  | read (n : Nat)
  /-- `c.sctpConn.Close()` -/
  | sctpClose
  /-- `select { case <-ctx.Done(): ...; default: }` -/
  | ctxDone
  | monSelect
  /-- the part of `c.beatAllow.Wait()` that registers the goroutine -/
  | waitEnter
  /-- the part of `c.beatAllow.Wait()` that waits to be woken -/
  | waitLeave
  /-- `c.beatAllow.Broadcast()` -/
  | broadcast
  | ackSelect
  /-- `select` on `ctx.Done()` and the interval, `asptm.go:59-64` -/
  | sleepSelect
  /-- `rand.Read(data)` of `crypto/rand` on the 128-byte buffer `data` of `heartbeat` -/
  | rand
  /-- the bytes of `c.cfg.HeartbeatInfo.Data` -/
  | getBeat
  /-- `c.cfg.HeartbeatInfo.Data = data`, `asptm.go:42` -/
  | setBeat
  | estSelect
  /-- `r.Intn(n)` of `math/rand` -/
  | intn (n : Nat)
  /-- the `go` statement -/
  | spawn (g : Gor)
  /-- run-time panic of the current goroutine, which ends the process -/
  | crash
  /-- bookkeeping: the API call returns `r` to the user -/
  | done (r : ApiRes)
  /-- bookkeeping: `Dial` / `Accept` returns -/
  | opened (r : OpenRes)
  deriving DecidableEq, Repr

/-- What an operation evaluates to. -/
@[reducible] def Resp : Op → Type
  | .state => St
  | .getSt => St
  | .recvData => Option ProtocolDataPayload
  | .info => Info
  | .write .. => Option Nat
  | .read _ => Option Bytes
  | .sctpClose => Bool
  | .ctxDone => Bool
  | .monSelect => MonEv
  | .ackSelect => AckEv
  | .sleepSelect => Bool
  | .rand => Option Bytes
  | .getBeat => Bytes
  | .estSelect => EstEv
  | .intn _ => Nat
  | .crash => Empty
  | _ => Unit

/-- Sequential code returning an `α`. -/
inductive Prog (α : Type) : Type where
  | ret (a : α)
  | op (o : Op) (k : Resp o → Prog α)

namespace Prog

def bind {α β : Type} : Prog α → (α → Prog β) → Prog β
  | .ret a, f => f a
  | .op o k, f => .op o fun r => (k r).bind f

instance : Monad Prog where
  pure := .ret
  bind := bind

end Prog

/-- Perform one operation. -/
def act (o : Op) : Prog (Resp o) := .op o .ret

/-- `panic`. -/
def crash {α : Type} : Prog α := .op .crash nofun

end M3.Conn
