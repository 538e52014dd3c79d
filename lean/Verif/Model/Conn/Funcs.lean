import Verif.Model.Conn.Prog

/- Model of the methods of `Conn` (`conn.go`, `fsm.go`, `aspsm.go`, `asptm.go`, `transfer.go`,
`management.go`, `errors.go`) and of the concurrent part of `Dial` and `Accept`. Log output is left out. -/

namespace M3.Conn

/-- The constants of a connection: `mode`, `cfg`, `maxMessageStreamID` of `conn.go:27-55`. `hb` is
`*cfg.HeartbeatInfo`, which `Dial` / `Accept` have dereferenced already (C39); its `Data` is a shared
variable and only starts as `hb.data`. A user changing the `Config` after the call is not modelled. -/
structure Env where
  mode : Mode
  cfg : Config
  hb : HeartbeatInfo
  maxStream : UInt16

/-- `(*Conn).WriteSignal`, `conn.go:175-195`. -/
def writeSignal (m : M3UA) : Prog (Except CErr Nat) := do
  let n := m.marshalLen
  let buf := Slice.make n
  match m.marshalTo buf with
  | .err e => return .error (.marshal e)
  | .panic => crash
  | .diverge => crash
  | .ok (_, mem) =>
    let info ← act .info
    let out : Slice := { buf with mem := mem }
    match ← act (.write out.bytes (if m.messageClass ≠ 1 then { info with stream := 0 } else info)) with
    | none => return .error .sctp
    | some nn => return .ok (n + nn)

/-- The common idiom `if _, err := c.WriteSignal(m); err != nil { return err }; return nil`. -/
def writeOnly (m : M3UA) : Prog (Option CErr) := do
  match ← writeSignal m with
  | .error e => return some e
  | .ok _ => return none

variable (E : Env)

/-- `(*Conn).initiateASPSM`, `aspsm.go:9-17`. -/
def initiateASPSM : Prog (Option CErr) := writeOnly (.aspUp (Msg.AspUp.new E.cfg.aspIdentifier none))

/-- `(*Conn).initiateASPTM`, `asptm.go:16-24`. -/
def initiateASPTM : Prog (Option CErr) :=
  writeOnly (.aspActive (Msg.AspActive.new E.cfg.trafficModeType E.cfg.routingContexts none))

/-- The case `StateAspActive` of `handleStateUpdateAsClient` / `AsServer`, `fsm.go:73-78`, `95-100`. -/
def notifyEstablished (current previous : St) : Prog (Option CErr) := do
  if current ≠ previous then
    act .sendEst
    act .broadcast
    return none
  else return none

/-- `(*Conn).handleStateUpdateAsClient`, `fsm.go:67-84`. -/
def handleStateUpdateAsClient (current previous : St) : Prog (Option CErr) :=
  match current with
  | .down => initiateASPSM E
  | .inactive => initiateASPTM E
  | .active => notifyEstablished current previous
  | .cdi => return some .sctpNotAlive
  | .ri => return some .sctpNotAlive

/-- `(*Conn).handleStateUpdateAsServer`, `fsm.go:86-106`. -/
def handleStateUpdateAsServer (current previous : St) : Prog (Option CErr) :=
  match current with
  | .down => return none
  | .inactive => return none
  | .active => notifyEstablished current previous
  | .cdi => return some .sctpNotAlive
  | .ri => return some .sctpNotAlive

/-- `(*Conn).handleStateUpdate`, `fsm.go:45-65`; the `default` case cannot occur. -/
def handleStateUpdate (current : St) : Prog (Option CErr) := do
  act .lock
  let previous ← act .getSt
  act (.putSt current)
  let e ← match E.mode with
    | .client => handleStateUpdateAsClient E current previous
    | .server => handleStateUpdateAsServer current previous
  act .unlock
  return e

/-- `(*Conn).Close`, `conn.go:198-211`. The result tells whether `sctpConn.Close()` returned nil. -/
def close : Prog Bool := do
  act .lock
  if (← act .getSt) = .down then
    let r ← act .sctpClose
    act .unlock
    return r
  else
    act .closeEst
    act .closeAck
    act .closeData
    act (.putSt .down)
    let r ← act .sctpClose
    act .unlock
    return r

/-- `(*Conn).handleAspUp`, `aspsm.go:18-37`. -/
def handleAspUp (m : Msg.AspUp) : Prog (Option CErr) := do
  if (← act .state) ≠ .down then return some (.unexpectedMessage (.aspUp m)) else
  let id := (← act .info).stream
  if id ≠ 0 then return some (.invalidStream id) else
  writeOnly (.aspUpAck (Msg.AspUpAck.new E.cfg.aspIdentifier none))

/-- `(*Conn).handleAspUpAck`, `aspsm.go:39-48`. -/
def handleAspUpAck (m : Msg.AspUpAck) : Prog (Option CErr) := do
  if (← act .state) ≠ .down then return some (.unexpectedMessage (.aspUpAck m)) else
  let id := (← act .info).stream
  if id ≠ 0 then return some (.invalidStream id) else
  return none

/-- `(*Conn).handleAspDown`, `aspsm.go:50-68`. -/
def handleAspDown (m : Msg.AspDown) : Prog (Option CErr) := do
  let s ← act .state
  if s ≠ .inactive ∧ s ≠ .active then return some (.unexpectedMessage (.aspDown m)) else
  let id := (← act .info).stream
  if id ≠ 0 then return some (.invalidStream id) else
  writeOnly (.aspDownAck (Msg.AspDownAck.new none))

/-- `(*Conn).handleAspDownAck`, `aspsm.go:70-80`. -/
def handleAspDownAck (m : Msg.AspDownAck) : Prog (Option CErr) := do
  let s ← act .state
  if s = .inactive ∨ s = .active then return some (.unexpectedMessage (.aspDownAck m)) else
  let id := (← act .info).stream
  if id ≠ 0 then return some (.invalidStream id) else
  return none

/-- `(*Conn).handleAspActive`, `asptm.go:69-81`. -/
def handleAspActive (m : Msg.AspActive) : Prog (Option CErr) := do
  if (← act .state) ≠ .inactive then return some (.unexpectedMessage (.aspActive m)) else
  writeOnly (.aspActiveAck (Msg.AspActiveAck.new E.cfg.trafficModeType E.cfg.routingContexts none))

/-- `(*Conn).handleAspActiveAck`, `asptm.go:83-91`. -/
def handleAspActiveAck (m : Msg.AspActiveAck) : Prog (Option CErr) := do
  if (← act .state) ≠ .inactive then return some (.unexpectedMessage (.aspActiveAck m)) else
  return none

/-- `(*Conn).handleAspInactive`, `asptm.go:93-105`. -/
def handleAspInactive (m : Msg.AspInactive) : Prog (Option CErr) := do
  if (← act .state) ≠ .active then return some (.unexpectedMessage (.aspInactive m)) else
  writeOnly (.aspInactiveAck (Msg.AspInactiveAck.new E.cfg.routingContexts none))

/-- `(*Conn).handleAspInactiveAck`, `asptm.go:107-115`. -/
def handleAspInactiveAck (m : Msg.AspInactiveAck) : Prog (Option CErr) := do
  if (← act .state) ≠ .active then return some (.unexpectedMessage (.aspInactiveAck m)) else
  return none

/-- `(*Conn).handleHeartbeat`, `asptm.go:117-128`: the received message is sent back with another type. -/
def handleHeartbeat (m : Msg.Heartbeat) : Prog (Option CErr) := do
  if (← act .state) ≠ .active then return some (.unexpectedMessage (.heartbeat m)) else
  writeOnly (.heartbeat { m with header := { m.header with typ := 6 } })

/-- The comparison of `handleHeartbeatAck`, `asptm.go:137-144`; it is entered with equal lengths only. -/
def sameBytes : Bytes → Bytes → Bool
  | [], _ => true
  | p :: ps, q :: qs => if p ≠ q then false else sameBytes ps qs
  | _ :: _, [] => false

/-- `(*Conn).handleHeartbeatAck`, `asptm.go:130-147`. `myData` is read once; a concurrent change by
`heartbeat` during the comparison is not modelled. -/
def handleHeartbeatAck (m : Msg.HeartbeatAck) : Prog (Option CErr) := do
  if (← act .state) ≠ .active then return some (.unexpectedMessage (.heartbeatAck m)) else
  let myData ← act .getBeat
  match m.heartbeatData with
  | none => crash
  | some p =>
    match p.heartbeatData with
    | .ok dataFromPeer =>
      if dataFromPeer.length ≠ myData.length then return some (.unexpectedMessage (.heartbeatAck m))
      else if sameBytes dataFromPeer myData then return none
      else return some (.unexpectedMessage (.heartbeatAck m))
    | _ => crash

/-- `(*Conn).handleError`, `management.go:10-17`. -/
def handleError (m : Msg.Error) : Prog (Option CErr) := do
  let s ← act .state
  if s = .cdi ∨ s = .ri then return some (.unexpectedMessage (.error m)) else return none

/-- `(*Conn).handleNotify`, `management.go:20-27`. -/
def handleNotify (m : Msg.Notify) : Prog (Option CErr) := do
  let s ← act .state
  if s = .cdi ∨ s = .ri then return some (.unexpectedMessage (.notify m)) else return none

/-- `if err := ...; err != nil { c.errChan <- err }`. -/
def report (h : Prog (Option CErr)) : Prog Unit := do
  match ← h with
  | some e => act (.sendErr e)
  | none => return ()

/-- `c.stateChan <- c.State()`. -/
def sendCurrent : Prog Unit := do
  let s ← act .state
  act (.sendState s)

/-- `(*Conn).handleSignals`, `fsm.go:108-195`. -/
def handleSignals (m3 : M3UA) : Prog Unit := do
  if ← act .ctxDone then return () else
  if m3.version ≠ 1 then act (.sendErr (.invalidVersion m3.version)) else
  match m3 with
  | .data m => do
    act (.spawn (.data m))
    sendCurrent
  | .aspUp m => do
    report (handleAspUp E m)
    act (.sendState .inactive)
  | .aspUpAck m => do
    report (handleAspUpAck m)
    act (.sendState .inactive)
  | .aspDown m => do
    report (handleAspDown m)
    act (.sendState .down)
  | .aspDownAck m => do
    report (handleAspDownAck m)
    act (.sendState .down)
  | .aspActive m => do
    report (handleAspActive E m)
    act (.sendState .active)
  | .aspActiveAck m => do
    report (handleAspActiveAck m)
    act (.sendState .active)
  | .aspInactive m => do
    report (handleAspInactive E m)
    act (.sendState .inactive)
  | .aspInactiveAck m => do
    report (handleAspInactiveAck m)
    act (.sendState .inactive)
  | .heartbeat m => do
    report (handleHeartbeat m)
    sendCurrent
  | .heartbeatAck m => do
    report (handleHeartbeatAck m)
    act .sendAck
    sendCurrent
  | .error m => do
    report (handleError m)
    sendCurrent
  | .notify m => do
    report (handleNotify m)
    sendCurrent
  | m => do
    act (.sendErr (.unsupportedMessage m))
    sendCurrent

/-- The goroutine of `monitor`, `fsm.go:237-246`. -/
def packet (raw : Bytes) : Prog Unit :=
  match M3UA.parse raw with
  | .ok m => handleSignals E m
  | .err _ => return ()
  | .panic => crash
  | .diverge => crash

/-- `(*Conn).handleData`, `transfer.go:14-39`. -/
def handleData (m : Msg.Data) : Prog Unit := do
  if (← act .state) ≠ .active then act (.sendErr (.unexpectedMessage (.data m))) else
  match m.protocolData with
  | none => crash
  | some p =>
    match p.protocolData with
    | .ok pd => act (.sendData pd)
    | .err _ => act (.sendErr .failedToPeelOff)
    | .panic => crash
    | .diverge => crash

/-- `first40Octets`, `errors.go:62-72`, `90-100`. -/
def first40Octets (m : M3UA) : Prog Bytes :=
  match m.marshalBinary with
  | .ok (_, b) => if b.length < 40 then return b else return b.take 40
  | .err _ => return []
  | .panic => crash
  | .diverge => crash

/-- The reply `handleErrors` builds, `errors.go:135-183`. -/
def errorReply : CErr → Prog (Option M3UA)
  | .invalidVersion _ =>
    return some (.error (Msg.Error.new (some (Param.newErrorCode 1)) none none none none))
  | .unsupportedClass m => do
    let d ← first40Octets m
    return some (.error (Msg.Error.new (some (Param.newErrorCode 3)) none none none
      (some (Param.newDiagnosticInformation d))))
  | .unsupportedMessage m => do
    let d ← first40Octets m
    return some (.error (Msg.Error.new (some (Param.newErrorCode 4)) none none none
      (some (Param.newDiagnosticInformation d))))
  | .unexpectedMessage _ =>
    return some (.error (Msg.Error.new (some (Param.newErrorCode 6)) E.cfg.routingContexts
      E.cfg.networkAppearance (some (Param.newAffectedPointCode [E.cfg.originatingPointCode])) none))
  | .invalidStream _ =>
    return some (.error (Msg.Error.new (some (Param.newErrorCode 9)) none none none none))
  | .aspIDRequired =>
    return some (.error (Msg.Error.new (some (Param.newErrorCode 0xe)) none none none none))
  | _ => return none

/-- `(*Conn).handleErrors`, `errors.go:134-194`. -/
def handleErrors (e : CErr) : Prog (Option CErr) := do
  match ← errorReply E e with
  | none => return some e
  | some res => writeOnly res

/-- `c.Close(); return` inside `monitor`, followed by the deferred `Broadcast` (`fsm.go:205`). -/
def monitorExit : Prog (Option Gor) := do
  let _ ← close
  act .broadcast
  return none

/-- `(*Conn).monitor` before its loop, `fsm.go:198-207`. The channels it makes are used by nobody before
its loop receives the first value, so they are taken to exist from the start. -/
def monitor : Prog (Option Gor) := do
  act (.spawn .heartbeat)
  return some .monitorLoop

/-- One iteration of the loop of `monitor`, `fsm.go:208-248`. -/
def monitorLoop : Prog (Option Gor) := do
  match ← act .monSelect with
  | .ctx => monitorExit
  | .err err =>
    match ← handleErrors E err with
    | some _ => monitorExit
    | none => return some .monitorLoop
  | .state s =>
    match ← handleStateUpdate E s with
    | some .sctpNotAlive => monitorExit
    | _ =>
      match ← act (.read 1500) with
      | none => monitorExit
      | some raw =>
        act (.spawn (.packet raw))
        return some .monitorLoop

/-- `(*Conn).heartbeat` before its loop, `asptm.go:26-32`. -/
def heartbeat : Prog (Option Gor) := do
  act .waitEnter
  act .waitLeave
  if E.hb.enabled then return some .beatLoop else return none

/-- One iteration of the loop of `heartbeat`, `asptm.go:33-66`. -/
def beatLoop : Prog (Option Gor) := do
  match ← act .rand with
  | none =>
    act (.sendErr .rand)
    return none
  | some data =>
    let beat := Msg.Heartbeat.new (some (Param.newHeartbeatData (List.replicate 128 0)))
    match ← writeSignal (.heartbeat { beat with heartbeatData := some (Param.newHeartbeatData data) }) with
    | .error _ =>
      act (.sendErr .failedToWriteSignal)
      return none
    | .ok _ =>
      act .setBeat
      match ← act .ackSelect with
      | .ctx => return none
      | .closed => return none
      | .timer =>
        act (.sendErr .heartbeatExpired)
        return none
      | .ack =>
        if ← act .sleepSelect then return none
        else return some .beatLoop

/-- `Dial` from its `select` on, `client.go:55-65`; `Accept`, `server.go:80-90`. -/
def openMain : Prog (Option Gor) := do
  match ← act .estSelect with
  | .ok =>
    act (.opened .conn)
    return none
  | .closed =>
    let _ ← act .sctpClose
    act (.opened .failedToEstablish)
    return none
  | .timeout =>
    let _ ← act .sctpClose
    act (.opened .timeout)
    return none

/-- `(*Conn).chooseStreamID`, `conn.go:257-264`; `Intn` panics if its argument is not positive. -/
def chooseStreamID : Prog UInt16 := do
  if E.maxStream = 1 then return 1
  else if E.maxStream = 0 then crash
  else
    let r ← act (.intn E.maxStream.toNat)
    return UInt16.ofNat r + 1

/-- The part common to `WriteToStream` and `WritePDToStream`, `conn.go:117-137` and `152-171`. -/
def writeData (pd : Option Param) (streamID : UInt16) : Prog ApiRes := do
  match (Msg.Data.new E.cfg.networkAppearance E.cfg.routingContexts pd E.cfg.correlationID).marshalBinary with
  | .err e => return .fail (.marshal e)
  | .panic => crash
  | .diverge => crash
  | .ok (_, d) =>
    let info ← act .info
    match ← act (.write d { info with stream := streamID }) with
    | none => return .fail .sctp
    | some n => return .wrote (n + d.length)

/-- `(*Conn).WriteToStream`, `conn.go:113-138`. -/
def writeToStream (b : Bytes) (streamID : UInt16) : Prog ApiRes := do
  if (← act .state) ≠ .active then return .fail .notEstablished else
  match Param.newProtocolData E.cfg.originatingPointCode E.cfg.destinationPointCode E.cfg.serviceIndicator
      E.cfg.networkIndicator E.cfg.messagePriority E.cfg.signalingLinkSelection b with
  | .ok pd => writeData E (some pd) streamID
  | .err e => return .fail (.marshal e)
  | .panic => crash
  | .diverge => crash

/-- `(*Conn).WritePDToStream`, `conn.go:148-172`. -/
def writePDToStream (pd : Option Param) (streamID : UInt16) : Prog ApiRes := do
  if (← act .state) ≠ .active then return .fail .notEstablished else
  writeData E pd streamID

/-- `(*Conn).Read`, `conn.go:64-83`. -/
def read (len : Nat) : Prog ApiRes := do
  if (← act .state) ≠ .active then return .fail .notEstablished else
  match ← act .recvData with
  | none => return .fail .notEstablished
  | some pd => return .data pd.data.length (pd.data.take len)

/-- `(*Conn).ReadPD`, `conn.go:86-103`. -/
def readPD : Prog ApiRes := do
  if (← act .state) ≠ .active then return .fail .notEstablished else
  match ← act .recvData with
  | none => return .fail .notEstablished
  | some pd => return .pd pd

/-- A call of the API. `Write`: `conn.go:106-110`; `WritePD`: `141-145`; `State`: `239-243`;
`StreamID`: `246-248`; `MaxMessageStreamID`: `252-254`. -/
def apiCall : Api → Prog ApiRes
  | .read n => read n
  | .readPD => readPD
  | .write b => do
    let stream ← chooseStreamID E
    writeToStream E b stream
  | .writeToStream b s => writeToStream E b s
  | .writePD pd => do
    let stream ← chooseStreamID E
    writePDToStream E pd stream
  | .writePDToStream pd s => writePDToStream E pd s
  | .writeSignal m => do
    match ← writeSignal m with
    | .error e => return .fail e
    | .ok n => return .wrote n
  | .close => do
    let r ← close
    return .closed r
  | .state => do
    let s ← act .state
    return .state s
  | .streamID => do
    let i ← act .info
    return .stream i.stream
  | .maxMessageStreamID => return .stream E.maxStream

/-- The code of each goroutine; the result is the loop head to continue at, if any. -/
def body : Gor → Prog (Option Gor)
  | .main => openMain
  | .start => do
    act (.sendState .down)
    return none
  | .monitor => monitor
  | .monitorLoop => monitorLoop E
  | .heartbeat => heartbeat E
  | .beatLoop => beatLoop
  | .packet raw => do
    packet E raw
    return none
  | .data m => do
    handleData m
    return none
  | .api c => do
    let r ← apiCall E c
    act (.done r)
    return none

end M3.Conn
