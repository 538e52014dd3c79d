# Verification of go-m3ua: design

Subject: `/repo` (wmnsk/go-m3ua at the pinned commit), read as text and never built or run.
Properties: `properties.jsonl`. Model, specification and proofs: `lean/Verif`. Status: `MANIFEST.json`.
Mutation tests: `seeded/`. Generators: `tools/`.

Contents: 1 trusted base, 2 what is modelled, 3 what is not modelled, 4 how the connection is modelled,
5 structure of the Lean library, 6 how properties are stated and proved, 7 findings, 8 mutation testing,
9 theorems and their axioms.

## 1. Trusted base

* The Lean 4.33.0 kernel. Every theorem is a kernel-checked proof term. No `sorry`, no `admit`, no own axioms,
  no `native_decide`, no `bv_decide`, no `implemented_by`, no `unsafe`.
* The axioms of each theorem: always a subset of `propext`, `Classical.choice`, `Quot.sound`. Section 9 lists them
  theorem by theorem, as printed by `#print axioms` during the build (`lean/Verif/Axioms.lean`).
* The faithfulness of the translation from Go to Lean (`Verif/Model`). Every definition cites the Go file and
  the lines it translates and says where it simplifies. Sections 2 to 4 sum this up. As a check of the translation, the
  project's own tests are evaluated on the model (`Verif/Tests`): all cases of the 24 test files of `messages`, `messages/params` and `pc`,
  translated by `tools/gen_tests.py`, and `TestReadWrite` of `conn_test.go` with its configurations, in one schedule. The model gives
  the expected results in all of them. These are tests, not proofs, and no property rests on them.
* The specifications (`Verif/Spec`, and a few `def`s next to theorems marked as specification), which give the theorems
  their meaning. Those about the wire format, point codes and parameter tables use nothing of the model. Those about
  connections are functions and predicates on the *trace*, the list of what the goroutines did; they use the vocabulary of
  the trace (operations, results) and, where they speak about received datagrams, the model of `messages.Parse`, which is
  itself characterised by C17 to C30.
* Only Lean's core library is used; Mathlib is not imported.

Some closed facts (examples, and the finite exploration behind C59) are checked by letting the kernel evaluate a
function (`rfl` inserted by the macro `kernel_rfl`, or `decide +kernel`). These are ordinary kernel proofs.
C59 explores a finite abstraction by such an evaluation; the soundness of the abstraction for all
configurations, all interleavings and an unbounded number of steps is proved (`Lemmas/Conn/Shake*.lean`).

## 2. What is modelled

| Go | Lean (`Verif/Model`) | how |
|----|------|-----|
| `messages/params/params.go` and the parameter files | `Params.lean`, `ParamKinds.lean` | total functions on byte lists; slices with explicit offset, length and capacity where Go writes through them; errors, panics and non-termination are values (`Res`) |
| `messages/header.go`, `generic.go`, `message.go` | `Header.lean`, `Generic.lean`, `Message.lean` | likewise; `messages.Parse` with its dispatch on class and type |
| the 19 message files of `messages/` | `Msg/*.lean` | one structure per Go type, one function per method; generated by `tools/gen_messages.py`, which reads the field order of every Go function separately |
| messages as variables: nil `*Header`, what a failed `UnmarshalBinary` leaves behind | `Held.lean` | a message and whether it has a header; the loops again, returning the variable and the error; C101 shows that success and errors agree with the others |
| names of messages and states; exported constants of `params` | `Names.lean`, `Constants.lean` | tables; `const` blocks as functions of `iota` |
| `String()` of header, parameters, payload and messages | `Strings.lean` | concatenation of the pieces of each format string; verbs `%d`, `%#x`, `%x`, `%s`, `%v` for the types printed |
| memory shared by a parsed message and the buffer it was parsed from; the monitor's buffer | `Memory.lean` | pointers as windows (start, length) into the buffer; the parsing functions again, returning windows; C91 shows that they agree with the others |
| parameters that several messages hold | `Sharing.lean` | parameters in a heap, messages with pointers to them; programs as lists of statements; C107 shows that constructors and `SetLength` agree with the others |
| nil parameters: as receivers, and as members of `Generic` and of the list for `MarshalMultiParams` | `Nil.lean` | the methods again, with pointers (`Option Param`); C108 shows that they agree with the others where no pointer is nil |
| payload structures of `params` as variables: what `UnmarshalBinary` leaves there, also if it fails | `HeldPayload.lean` | again without cuts; C109 relates it to `ParamKinds.lean` |
| errors as Go values: `Error()`, wrapping, `errors.Is`, `errors.As`; `handleErrors` statement by statement | `Errors.lean`, `Conn/Errors.lean` | an inductive type; C99 shows that the model's errors (`CErr`), which have no wrapping, are treated alike |
| `pc/pc.go` | `Pc.lean` | 32-bit words, strings as character lists, `strings.Split`, `strings.Join`, `strconv.Atoi`, `strconv.Itoa` |
| `logger.go` | `Logger.lean` | small-step machine with a non-reentrant mutex and any number of callers; contents of every logger's output |
| `examples/pc-conv`, `fuzz.go`, the configurations of the example client and server | `Examples.lean` | flags are arguments; a log line is what is put into it |
| the accept loop of the example server | `Conn/AcceptLoop.lean` | a relation between the associations offered and what the loop got; the shared configuration may change in any way between two calls |
| `config.go` | `Config.lean` | record of optional parameters; constructors and setters; nil `HeartbeatInfo` |
| `client.go`, `server.go`, `conn.go`, `fsm.go`, `aspsm.go`, `asptm.go`, `transfer.go`, `management.go`, `errors.go` (`handleErrors`) | `Conn/Prog.lean`, `Conn/Funcs.lean`, `Conn/Sys.lean`, `Conn/Pair.lean`, `Conn/Link.lean`, `Conn/Group.lean`, `Conn/Timed.lean`, `Conn/Prompt.lean`, `Conn/Setup.lean` | section 4 |

Numbers: `uint8`, `uint16`, `uint32` are exact and wrap as in Go. `int` is `Nat` or `Int` without overflow: all `int`s of
the code are lengths, bounded by memory. In `pc.go`, where a user string becomes an `int`, `Atoi` fails outside 64 bits.

## 3. What is not modelled

* Text for humans: wording of log lines. (`String()` and `Error()` are modelled, with the verbs of `fmt` that they use.)
* Deprecated wrappers: `Serialize`, `SerializeTo`, `DecodeXxx`, `DecodeFromBytes`, `Len` of messages, header, parameters and payloads,
  `messages.Decode`. They log and call the modelled function of the new name (`tools/cites.py` checks all 114, and the citations of this model).
* `conn.go`: `LocalAddr`, `RemoteAddr`, `SetDeadline`, `SetReadDeadline`, `SetWriteDeadline`; `server.go`: `Listener.Close`,
  `Listener.Addr`. They forward to SCTP. (In the model a read or write of the association can fail at any time, which covers passed deadlines: C119.)
* the rest of `examples/` (package `flag`, log texts, the loop of the example client), tests.
* Nil pointers to messages: neither constructed nor parsed; their methods dereference nil. (A nil `Header` is modelled in
  `Held.lean`, nil parameters in `Nil.lean`.)
* Sharing of memory beyond C91, C106 and C107: the payload structures of `RoutingKey` and others, whose fields
  point to parameters (of these parameters themselves the memory is modelled); two messages with the same `*Header` (every constructor makes one).
  (The heartbeat buffer, which is changed while shared, is modelled: `BeatRef`.)
* A user who changes the `Config` after `Dial`/`Listen`. (The one change the library itself makes, storing the heartbeat data, and its
  effect on other connections of the same `Listener` are modelled.)
* The SCTP library and the network. Section 4 says what is assumed.
* Allocation failure, stack overflow, and the Go memory model beyond sequential consistency (section 4).

## 4. How a connection is modelled

*Code.* Each function of the connection is a term of type `Prog`: a tree of *operations* with pure Lean in
between. An operation is one access to what goroutines share: `c.state` and its mutex, channels, the
condition variable, the context, the SCTP association, `sctpInfo`, heartbeat data, clock, random numbers, `go`. A goroutine is
such a tree together with what it has done (`Thread`). Loops (`monitor`, `heartbeat`) are entered again by a separate step.

*State and steps* (`Conn/Sys.lean`). A `World` is the shared state, a list of goroutines and the trace. A `Step` is one of: a goroutine
completes an operation; a sender and a receiver of an unbuffered channel meet; a goroutine enters its loop again; a goroutine panics, which
ends the process; a datagram arrives; the context is cancelled; another connection of the same `Listener` stores its heartbeat data;
the user, who may use any number of goroutines, calls a method. `Reachable E w`: `w` can be reached from the moment the SCTP
association is up, for client or server (`E.mode`) and any configuration. Theorems quantify over `E`, over `w` with
`Reachable E w`, and so over all inputs, all schedules and all lengths of executions.

*Assumptions about the world around.*
* SCTP: `SCTPRead` returns the next datagram that was delivered, or its first 1500 bytes if it is longer (the rest comes
  with the next read), or an error at any time. `SCTPWrite` succeeds, reporting any count, or fails, at any time;
  after `Close` both only fail. What the peer sends is arbitrary, except in C59, where it is another connection of this
  library (`Conn/Pair.lean`) and the network neither loses, changes nor reorders datagrams, and in C82, C83, C85 and C88, where it is another connection
  of this library (`Conn/Link.lean`) and the network may lose and reorder datagrams but neither changes nor duplicates them; C85 and C88 assume in addition that the
  handshake is not overtaken (`InOrder`). C84, C85 and C88 are about sessions that nothing disturbs (`Undisturbed`, `Peaceful` in `Spec/Session.lean`). C95 (`Attended` in `Spec/Pulse.lean`) adds answered heartbeats; it assumes that the library reads an answer only after it has stored the data (otherwise C77 applies: the answer is refused). C96 is about two endpoints of this library with heartbeats on (`Undisrupted` in `Props/Conn/Duo.lean`, `Spec/Duo.lean`): everything as in C85, and again no answer is read before the data are stored (`Unhurried`; `c96_hurried` shows that this is needed). `Apart` says that neither shares its `HeartbeatInfo` with another connection.
* Time: a timer may fire at any moment once armed. So nothing depends on durations, and no theorem promises that something
  happens in time. `Conn/Timed.lean` adds a clock for C94: a timer fires when its duration has passed since the goroutine's last operation or
  later. No upper bounds are assumed, so most of C94 consists of lower bounds on time (and shows that they are reached). `Conn/Prompt.lean` singles out the executions in which one goroutine is never kept waiting once it can go on; the upper bounds of C94 (`c94_returns`, `c94_waits`, `c94_frequent`) are about these, and `SCTPWrite` and `rand.Read` take no time there. `time.After` starts its timer when the
  `select` is entered, which is not earlier than the last operation; the model allows both.
* Scheduling: arbitrary, no fairness. "Never again" theorems hold for all continuations. Existence theorems exhibit a schedule.
* Memory: sequentially consistent interleaving of single operations. An unsynchronised access (`HeartbeatInfo.Data`, `sctpInfo`) is one
  operation, so a race shows as an interleaving, not as a torn value. In `handleHeartbeatAck` the data are read once. C92 shows what this
  simplification amounts to: without heartbeats no two goroutines ever access one of the modelled variables at the same time, so Go's memory model
  promises sequential consistency; with heartbeats only the comparison of their data can be affected. The lengths that `SetLength` writes to the
  parameters of the configuration are not variables of the model (every writer writes the same value, computed from the value of the parameter).

*Several connections.* `Conn/Group.lean` has any number of connections in one process with one `Config`, as those of a `Listener`. Everything else is about
a single connection, where others appear only as the step "another connection stores its heartbeat data". C93 justifies this: each
connection of a group takes only steps of a single connection.

*Simplifications.*
* `sync.RWMutex`: a reader holds it only inside the single operation `state`; Go's preference for waiting writers does not matter as no
  reader takes it twice.
* `Close` and the state change hold the lock over several operations, as in Go, so other goroutines do see the lock held.
* The channels made at the start of `monitor` exist from the beginning: nobody uses them before the monitor receives the first value.
* `dataChan` has capacity 65535 and is the only buffered channel. The `select` that sends on it or sees the context done is one operation.
* A send on a closed channel panics, also when the channel is closed while the sender waits; a second `close` panics.
* `c.beatAllow.Wait()` is two operations (register, be woken), so a `Broadcast` before registration is lost, as in Go.
* `Dial` and `Accept` before the association is up (address resolution, `net` errors, nil `HeartbeatInfo`) are sequential
  functions in `Config.lean` (C39) and `Conn/Setup.lean` (C100), with SCTP as a parameter.

## 5. Structure of the Lean library

```
Verif/Basic.lean               results (ok, error, panic, divergence), slices, big-endian words
Verif/Spec/Wire, Table         RFC 4666: wire format, tags, classes, types, who may carry what
Verif/Spec/Memory              places of values in a datagram
Verif/Spec/Refused             reasons for which a datagram is refused
Verif/Spec/Numbers             RFC 4666: numbers inside parameters, names of messages
Verif/Spec/PointCode           point codes as mixed-radix numbers
Verif/Spec/Conn                what a trace shows: sent, received, returned, observed, taken, closed
Verif/Spec/Meaning             what a datagram means; the state that a message asks for
Verif/Spec/Handling            expected messages, answers, complaints, error replies, closing
Verif/Spec/Flow                payloads carried, queued, handed over
Verif/Spec/Session             sessions without disturbances
Verif/Spec/Display             labels and layout of printed messages
Verif/Spec/Work                what gives a connection work to do
Verif/Spec/Halt                connections that do nothing by themselves any more
Verif/Spec/Race                data races
Verif/Spec/Monitor, Beats      rounds of the monitor and of the heartbeat goroutine; who sends what
Verif/Model/...                the Go code (section 2)
Verif/Lemmas/Bytes, Params, ParamKinds, Codec, MsgInst, Messages, Seq, Pc, Memory    codec proofs
Verif/Lemmas/KernelRfl         closing closed goals by kernel evaluation
Verif/Lemmas/Conn/Code         weakest preconditions of the code (`WP`), every function in normal form
Verif/Lemmas/Conn/Disc         disciplines: per-goroutine typestate + global invariant => invariant of all executions
Verif/Lemmas/Conn/Path, Hist, Round     what one goroutine did is a path through its code
Verif/Lemmas/Conn/Facts, Role, Lock, Idle, Est, Wake, Active, Token, Count, Fold, Flow, Keep    invariants
Verif/Lemmas/Conn/Down         the state after the monitor has returned
Verif/Lemmas/Conn/Halt         what each goroutine of such a connection waits for; the lock; the permission to read
Verif/Lemmas/Conn/Sched        schedules as data, their execution, soundness (for existence proofs and examples)
Verif/Lemmas/Conn/LinkSched    schedules of two connected endpoints
Verif/Lemmas/Conn/Shake*       the handshake of two endpoints: abstraction, simulation, exploration
Verif/Lemmas/Conn/Calm*        sessions without disturbances: roles, invariant, rest, what is sent
Verif/Lemmas/Conn/Pulse*       the same with heartbeats that are answered
Verif/Lemmas/Conn/Race         one goroutine sends heartbeats, only handlers of Heartbeat Ack look at their data
Verif/Lemmas/Conn/Group        each connection of a group is a connection; whose buffer the heartbeat data are in
Verif/Lemmas/Conn/Solo         one goroutine sends heartbeats
Verif/Lemmas/Conn/Timed        executions with a clock
Verif/Lemmas/Conn/Fuel         amortised bounds: who pays for which operation
Verif/Lemmas/Conn/MonRound     the code of the monitor against Spec/Monitor
Verif/Tests/...                the project's own tests, evaluated on the model
Verif/Props/...                the theorems `cNN_...`, each followed by examples
Verif/Axioms.lean              generated; prints the axioms of every theorem
```

## 6. How properties are stated and proved

`theorem cNN_name` proves property CNN or a part of it; together the theorems of a property cover its statement. The suffix `_partial`
marks a statement weaker than the property (there is none at present). Where the code violates what one would expect, the
property states what the code really does, and a theorem with an explicit execution or value shows the violation for every
configuration, or for the class of inputs named. The `example`s next to a theorem show that its hypotheses
can be met in a case that is not trivial, usually by a concrete execution of the whole model.

| properties | method |
|----|-----|
| C01-C15, C68-C70, C75 | lists and big-endian words; `ParseMultiParams` by recursion on the rest, an inductive relation for the accepted language; every constructor and accessor against the tag table of RFC 4666 |
| C16-C30 | a codec over lists of fields, each message proved to be an instance, theorems over the sum of all message types |
| C31-C36 | 32-bit arithmetic as mixed radix; printing and parsing decimals |
| C37, C65 | invariants of the logger machine |
| C38-C39, C80-C81 | direct |
| C40-C45, C62 | paths through the code of one call or one handler |
| C46-C48, C50-C53, C56, C57, C60, C61, C63, C64, C66, C67, C71-C74, C77 | disciplines and invariants over all executions |
| C49, C54, C55, C58, C76-C79 | invariants for "never again", schedules for existence |
| C82, C83 | two endpoints and a network; C83 adds a discipline for lower bounds (`Lemmas/Conn/Keep.lean`); what is under way is a permutation of what was sent; C50 at the receiver, paths at the sender |
| C84 | environment assumption `Undisturbed` (`Spec/Session.lean`), which limits the peer, the user and SCTP but not the schedule; a discipline whose roles are the phases of the handshake (`Lemmas/Conn/Calm.lean`): exactly one goroutine holds the token, i.e. is the one that may change the state; rest: a goroutine with an operation pending can take a step, so only the monitor waiting for a datagram remains (`CalmRest.lean`) |
| C85 | C84 for both ends: what an undisturbed end has sent is a part of its handshake, or all of it and then payloads (`CalmSent.lean`), which is what the other end expects; induction over the steps of both; delivery by C83 |
| C86 | printed forms are prefix-free given the next separator, so they can be read back |
| C87 | amortisation: every goroutine is born with a budget, a report to the monitor pays for its next round, a datagram for its handling (`Lemmas/Conn/Fuel.lean`) |
| C88 | steps of the two ends without new calls (`Model/Conn/Calm.lean`); bounded by C87 applied to both ends, since the datagrams received at one end are at most those sent by the other, which C84 limits; at rest C85 applies; every goroutine of a user's call that has not returned could still take a step (`Lemmas/Conn/CalmRun.lean`) |
| C89 | `Own` (`Spec/Halt.lean`) are the steps of goroutines without an event from outside, `Halted` that there is none. The lock: whoever holds it can go on, except the monitor in `estChan <-` (`Halt.locked`). The permission to read is passed from `start` to the monitor, to the handler of the datagram and back; exactly one goroutine has it or had it when it ended (`Halt.Pm`), so a monitor waiting for a report leads to the handler of the last datagram. Bounded by C87. A Boolean test for `Halted` (`Halt.halted_of`) serves the examples. |
| C90 | The lock and what the monitor saw under it show that the state is AspDown when the monitor has returned (`Down.down`). `Left` (`Props/Conn/Remains.lean`) lists the places where a goroutine can wait, by `Halt.waits` and the roles. For ever: no goroutine that is left hands over data or closes a channel, because `Close` reads AspDown from now on (`Left.Tame`, kept by every step). |
| C91 | parsing into windows commutes with reading the windows; positions by induction over the parameters |
| C92 | `Race` (`Spec/Race.lean`) is a situation with two enabled conflicting accesses; the lock (`Lemmas/Conn/Lock.lean`) and the roles exclude all but those of the heartbeat data; schedules for these |
| C93 | invariant `Group.Good` (projection to single connections, owner of the heartbeat data); the converse by running one connection after the other |
| C94 | invariant on executions with a clock (`Timed.Good`); the rounds of C73; one goroutine sends heartbeats (`Solo`); the work bound of C87; for the upper bounds an invariant on how long the goroutine has been where it is (`Timed.Swift`) |
| C95 | the roles of C84 extended by the heartbeat goroutine and the handlers of Heartbeat Ack (`Lemmas/Conn/Pulse*.lean`); at most one answer is awaited or handled; C77 for the data compared |
| C96 | a heartbeat not yet answered is under way, being handled or its answer is (counts per heartbeat data along the link, `Lemmas/Conn/PulseEven.lean`, `PulseDuo.lean`), so each end is an attentive peer (C95) of the other, by induction over the execution; C83 and C97 at rest |
| C97 | weights of requests, of the handlers' remaining programs and of answers and errors (`Lemmas/Conn/Reply.lean`); the upper bound is C52 |
| C98 | the reasons (`Spec/Refused.lean`) are stated on bytes; parameters by induction, the kinds through their codec instances |
| C99 | texts split into a fixed beginning and a variable end; finitely many beginnings are compared by evaluation, the ends are injective (decimal numbers, C80) |
| C100 | case distinction over the answers of SCTP; `Role` and the path of the opening goroutine for what it closes; schedules for the errors |
| C101 | the loop up to the first unknown tag, through the codec instances of the kinds; C98's lemmas for the rest |
| C102 | C54's invariant from the step that re-activates; the monitor's requests and the states it sets balance in each round, and the states set are the prefixes' states by induction over the received datagrams (C46) |
| C103 | ghost per goroutine of what it sent or made the monitor send for its datagram; one token (C46's) passed from monitor to handler and back carries "sent so far = transcript of the datagrams read so far"; errors reported by deliveries and by handlers of Heartbeat Acks, which do not hold the token, are answered in between: the invariant is about an interleaving of the transcript and of these Error messages, the one the monitor still owes being the end of either; `c103_realized`: the datagrams are delivered first, and the connection settles (C89) without a reason to close (C105); it then listens, or is blocked telling `Dial` that it is up a second time, which the state before it (C46) excludes; `c103_once`: conversely, whoever waits has waited after each datagram before, in the state of C46, and becoming AspActive a second time would have blocked it (C54) |
| C104 | closed form of encoding (C17, C26) with the parsed fields (C24); uniqueness of parameter sequences (C05) for the fixed points |
| C105 | per goroutine: what it did just before it reports an error or closes; the report of an error that gets no answer names its reason; closures traced back through the rendezvous on `errChan`; each reason by a schedule that works for every configuration |
| C106 | C91 with the array after `append`; places of parameters are apart by padding, tag and length |
| C107 | a message whose lengths are right keeps octets and right lengths under every statement but the excluded ones; induction over programs |
| C108 | split of a list at its first nil; C24 for what a parsed message holds; case analysis of all accessors (C10) |
| C109 | split of the parameters at the first foreign one; the last of each tag, or else the old value |
| C110 | C103 at every step of the trace: what was received so far decides what was sent, which decides what the gateway can send next; the gateway's script is the fixed point; existence from `c103_realized` |
| C111 | every taken payload was carried by a received datagram (C50), a datagram has at most 1500 bytes and needs 24 besides the data (language of C05); attained by C51 |
| C112 | cases of the program; C31, C32 and C35 for what is printed, C03–C05 and C20 for the fuzzing functions |
| C113 | the configurations evaluated (C100 for what `Dial` and `Accept` make of them); C111 and C82 for what `Read` gives, C88 for the outcome; C96's hypotheses for any heartbeat parameters |
| C114 | an invariant on the discipline `Lock`: if the queue is closed and the state is AspActive, the lock is held by `Close` about to set the state or by the monitor about to panic; with the argument of C102 (a second activation blocks the connection with the lock held) |
| C115 | a relation for the runs of the loop (`Model/Conn/AcceptLoop.lean`); induction on it, with C100 for each call of `Accept` |
| C116 | a simulation: the world with other data, where only the stored data differ, and only before the first store; weakest preconditions for one round of the heartbeat goroutine for what is sent |
| C117 | for each call the world in which it was made, where all earlier ones had returned; a call does nothing after it returned, so the trace is sorted by call; C41, C42 and C114 for each call, C66 for the queue |
| C118 | weakest preconditions for every goroutine: what it may write; lengths of the messages of the specification; C23 and C24 for the length of the heartbeat data; the received datagrams are at most 1500 bytes long |
| C119 | a discipline with one bit per goroutine (has a read failed?) and an invariant over all suffixes of the trace; C89 for what can remain, C42, C90, C102 for the calls; a schedule for every configuration |
| C120 | induction over the messages with the schedules of C51, then over the goroutines that queue the payloads; induction over the execution for what stays |
| C121 | induction over the parameter sequence (C05), then C23, C24, C104; C56 for the panic |
| C122 | the first closing of a channel: the lock discipline (C55) gives the state at that moment, C46 the datagram that caused it |
| C123 | as C110: induction over the received datagrams, C103 for what has been sent before each of them; C62 and C53 for AspActive; the path of `Dial` (C122); C103 for the executions |
| C124 | as C110; the dialogue depends only on the kinds of the messages (`Mirror.talk`), which are computed; C73 for the absence of heartbeats; C102 for what `Dial` is told |
| C125 | as C123 and C124; requests are counted; C102 for what comes after the lockout |
| C126 | the four ways to rest (C89): listening is refuted by counting requests (C103), deafness and closure by what the datagrams mean, so only the lock-up remains; it needs the second arrival at AspActive |
| C59 | two endpoints; sound finite abstraction explored by the kernel |

## 7. Findings

Behaviour that a user or reviewer would not expect, with the theorem that proves it.

1. One undecodable datagram, or one with a version other than 1, silences a connection for ever: the handler does not report
   back and nobody reads again (C49). The same happens with a Heartbeat Ack when heartbeats are disabled (C58).
2. A peer can crash the process with one message: DATA without Protocol Data, Heartbeat Ack without Heartbeat Data (C56).
3. `Close`, or loss of the association, while a message is being handled can crash the process: send on or close of a closed channel (C55).
4. Leaving and re-entering AspActive blocks the connection for ever with the state lock held; even `State()` and `Close` hang (C54).
5. Messages that are not expected in the present state are answered with an Error, but obeyed: a single ASP Active Ack takes a
   connection from AspDown to AspActive and makes `Dial` return (C47, C53).
6. DATA longer than the read buffer (1500 bytes) is never delivered and silences or crashes the receiver (C64).
7. Payloads can be read in another order than they were received (C51): each is handed over by its own goroutine. Every permutation of any number of payloads can occur.
8. A Heartbeat Ack with wrong data is answered by an Error, but counts as an acknowledgement (C57).
9. `State()` never reports a lost association (C60); the stream check never fires (C61).
10. `Write` reports the number given by SCTP plus the length of the datagram (C41); `Read` may report more bytes than the buffer holds and
    drops the rest (C42); `Write` and `WritePD` panic if the association has a single outbound stream (C40, C41).
11. The length field of received messages is never checked (C29); `RegistrationResult()` does not look at tags (C70); parameters
    of the wrong size read as 0 (C69); singular accessors panic on empty lists (C10); undefined parameters lead to rejection (C23).
12. Parameters longer than 65531 bytes are sent with a wrong length (C01); marshalling into a used buffer leaves old bytes as padding (C75).
13. Point codes: variant 4-4-6 does not work (C33); `ConvertTo` does not change the variant (C34); digit groups are not range-checked (C35).
14. `EnableLogging` hangs for ever (C37); `DisableLogging` silences a user's own logger permanently (C65).
15. Opening a connection with a nil `HeartbeatInfo` panics (C39).
16. A client sends ASP Up or ASP Active again for every message it handles in AspDown or AspInactive (C71).
17. The Heartbeat Ack echoes the header of the heartbeat, including its reserved octet and its
    length field, right or wrong (C45).
18. Error codes 3, 9 and 14 are never sent (C44, C67): unsupported classes are answered with code 4.
19. The complaint about an ASP Down Ack is inverted: it is reported as unexpected unless the state is AspDown (C47).
20. DATA whose value is shorter than 12 bytes, or an acknowledgement that cannot be written, closes the connection (C44, C67).
21. While the connection waits for a datagram it acts on nothing else: neither on a cancelled context nor on an expired heartbeat,
    so a silent peer is never detected (C76).
22. A correct answer to a heartbeat can be refused: the first one because its data are stored only after it was sent, any one if
    connections share their configuration, as those of a `Listener` do (C77).
23. Heartbeats are never sent if the goroutine that sends them starts to wait after the connection became active (C78).
24. Goroutines that have something to report when the monitor returns stay for ever (C79).
25. The exported constants for MTP3 users are all wrong (`SCCP` is 1 instead of 3), those for service indicators from broadband ISUP on
    too (C81).
26. DATA that overtakes ASP Active Ack (they use different streams) is refused and lost although `Write` succeeded and the association
    works (C83).
27. DUNA, DAVA, DAUD, DUPU and DRST are printed as their header only (C86); the printed DATA has no colon after `ProtocolData`.
28. A client can answer one datagram with two, an Error and ASP Up or ASP Active again (C87).
29. If a connection becomes active when `Dial` or `Accept` has just timed out, its monitor blocks for ever (C89). Findings 1 and 4 and this one
    are the only ways for a connection to hang (C89).
30. `Close` does not wake up a waiting `Read` when the state is AspDown, e.g. after an ASP Down Ack or ASP Down from the peer: it closes the
    association, returns nil, and `Read` waits for ever (C90).
31. With heartbeats enabled, `Close` during the pause between two heartbeats leaks their goroutine, because the pause ends only with the interval
    or the context and the next report finds no monitor (C90).
32. `messages.Parse` does not copy: whoever reads the next datagram into the same buffer changes the values, but not the tags and lengths, of
    every message parsed from it (C91). The connection itself copies first and is not affected.
33. The data of heartbeats are not protected: `heartbeat` stores them in the configuration after the message is sent, and fills the same buffer again
    for the next one, while another goroutine may be comparing them with a Heartbeat Ack (C92).
34. Concurrent `Write`s race about the `Length` of the parameters in the configuration (C92). All connections of one `Listener` share the
    configuration, so they race with each other, too; this is not modelled, except for the heartbeat data (C77).
35. The peer of one connection can stop all connections of a `Listener` (C93): finding 2 ends the process. A correct answer to a heartbeat is refused
    when another connection of the `Listener` has sent one since (C93).
36. Two endpoints of this library can get into trouble with their heartbeats alone, without any fault: an answer that is handled before the sender has
    stored the heartbeat's data is refused (C96). Otherwise they get on with each other for ever.
37. `handleErrors` asserts the types `*UnsupportedClassError` and `*UnsupportedMessageError` where it uses `errors.As` for the others: wrapped,
    these two would not be answered (C99). Nothing in the library wraps them.
38. `Dial` and `Accept` do not close the association if `GetStatus` fails (C100, `c100_leak`).
39. `UnmarshalBinary` is not atomic (C101): after an error the variable has the new header, or none, and some of the new parameters. `Version()` and
    `MarshalBinary()` panic after a call with fewer than eight bytes. A parameter keeps the wrong length it has read.
40. A connection cannot be taken out of service and back (C102). A client answers every datagram that leaves it AspDown or AspInactive with another
    ASP Up or ASP Active, without a pause; a peer that answers each request with an Error message is asked again for each answer. A user who sends
    ASP Inactive is activated again at once, which hangs both ends (`c102_suspend`).
41. A parsed message is marshalled with the length field that was received (C104, `c104_wrong`), although repeated parameters are dropped and missing
    padding is added: who passes messages on has to set the length (`SetLength`) first.
42. An ASP Up or ASP Active that cannot be sent is ignored (`monitor` only looks for `ErrSCTPNotAlive`, fsm.go:218-224): the client neither closes the
    connection nor asks again until something arrives (C105, example), while a failure to send anything else closes the connection.
43. `append` to the value of a parsed parameter overwrites the parameters behind it (C106): `UnmarshalBinary` does not limit the capacity of the slices.
44. `messages.New` panics if one of the parameters is nil, although all other constructors accept nil; and the accessors panic for a parameter the peer has left out
    (C108). Only `String` checks its receiver.
45. `UnmarshalBinary` of `RoutingKeyPayload` and `DeregResultPayload` does not clear the variable: decoded into a variable that was used before, a routing key without
    Network Appearance gets that of the one before (C109, `c109_mixed`); `DeregResultPayload` reports success even if a parameter is missing.
46. A client answers every Notify it gets while it is AspInactive with another ASP Active, because `handleSignals` reports the unchanged state to `stateChan` and
    `handleStateUpdateAsClient` acts on the state rather than on its change (C110). With a gateway that sends `n` notifications after ASP Up Ack, as RFC 4666
    4.3.4.5 asks for, the client sends `n + 1` ASP Actives and objects to `n` of the acknowledgements with an Error message.
47. `pc-conv` dereferences the nil pointer that `NewPointCodeFrom` returns for a point code it cannot read (any with a dash and a wrong number of groups), and
    that `NewPointCode` returns for an empty variant: it panics instead of reporting (`c112_panic`, `c112_end`). The number 0, a legal point code, passes the check of the flags (which tests for
    negative) but not the one before the conversion (which tests for positive): nothing is printed and the exit status is 0 (`c112_zero`).
48. The example server tells the end of a connection by `io.EOF` from `Read`. `Read` never returns it (C42, `c113_read`); the end of a connection is `ErrNotEstablished`,
    which the example logs as an unexpected error. (Giving up at this point is right: C114.)
49. The example server ends (`log.Fatalf`) when `Accept` returns an error, and `Accept` returns one for every peer that opens an association and does not complete
    the handshake: one silent peer ends the server with all the connections it has, however healthy they are (C115, `c115_silent`).
50. The comment on `EnableHeartbeat` (`config.go:61-66`) says that the data of a heartbeat are those in `Config.HeartbeatInfo.Data`, hard-coded by default and to be set by
    the user. `heartbeat()` (`asptm.go:26-67`) sends 128 random bytes instead and overwrites the field; the user's data are never sent (C116). They only matter for a
    Heartbeat Ack that comes before the first heartbeat is stored (finding on C77).
51. The read buffer has 1500 bytes (`fsm.go`), but nothing limits what is made from the configuration: a client with 373 or more routing contexts sends an ASP Active
    of which a peer using this library reads 1500 bytes, which cannot be decoded (C118), and then never reads again (C49).
52. `SetReadDeadline` is documented as "the deadline for future Read calls", but it is set on the association, which only the monitor reads: if the SCTP package
    honours it (not modelled), a passed deadline makes the monitor close the connection; `Read` does not return a timeout but ErrNotEstablished, and the
    connection is lost for good (C119).
53. A user who does not read is not protected: every DATA message beyond 65535 unread ones costs a goroutine that waits, without limit and without slowing the
    peer down; and with one such goroutine `Close` makes the process panic, unless the context was cancelled before (C120).
54. A datagram cut at the end of a parameter is taken for a complete message, although its length field says otherwise; eight octets of any DATA message
    are enough for a panic (C121). `SCTPRead` cuts what is longer than 1500 octets.
55. Cancelling the context given to `Dial` or `Accept`, or the association breaking, before the peer's first answer does not end the call: `Close` in AspDown does
    not close `established`, so the call waits for its ten seconds and returns `ErrTimeout` (C122).
56. A client whose ASP Up or ASP Active is answered with an Error message asks again at once, without pause and without end until `Dial` gives up after ten seconds, and
    `Dial` then returns `ErrTimeout`, not the reason (C123).
57. A client acknowledges ASP Up and ASP Active like a server. With a peer that sends everything back it becomes AspActive by its own acknowledgements, and `Dial` succeeds (C124).
58. A client that its gateway locks out (unsolicited ASP Inactive Ack or ASP Down Ack) and then refuses sends its request again for every refusal, at once and without end; no timer stops it (C125).
59. A client that its gateway locks out and lets in again hangs with the last acknowledgement, in every execution: the second arrival at AspActive is announced on `established`, which nobody reads any more (C126).

## 8. Mutation testing

`seeded/mutants_*.json` lists wrong programs: a definition of the model, a textual edit, and the property it should break. Most imitate
plausible mistakes in the Go code (wrong field order, missing padding, wrong constant, check left out, message sent twice, lock not
released, channel not closed). `tools/mutate.py` applies each edit in a scratch copy outside the repository, rebuilds the modules that
depend on it, and appends a line to `seeded/LOG.jsonl`: definition, edit, claim, theorems that no longer compile, and theorems that were
tightened because of it. A mutant that no property theorem noticed led to a stronger theorem or to a new property, among them C67
to C74, `c53_ends` and `c66_drained`; the line with the result after tightening follows the first one in the log.

The log has results for 563 mutants. 224 that are listed have not been run for lack of time, and nothing is claimed about them: 187 of
`mutants_auto.json` and `mutants_auto2.json`, and BL02, DN04, EA01, EA02, EA03, EA04, GW06, GW07, HP01, HP02, HP03, HP04, HP05, HP06, HP07, HP08, HP09, HP10, HP11, HP12, HP13, L35, RM06, MI01, MI02, N01, N02, N03, N04, N05, N06, N07, N08, N09, N10, N11, N12.
"Killed" means that a theorem no longer compiles with its present proof. Where `failed_directly` names only lemmas, the property theorems that depend on
them were not tried separately, so the mutant shows that the proof notices the edit and not by itself that the statement has become false.

Of those that were run, the mutants that survive are equivalent to the model: A1046, A1066, A1099, A1107 and A1147 change the length that a constructor writes before it
calls `SetLength`, A1062 the header that `Parse` overwrites before anybody sees it, and U05 a branch of `dial` that is not reached because
`dialOpen` panics first.

## 9. Theorems and their axioms

Generated by `tools/design.py`. Axioms: p = `propext`, q = `Quot.sound`, c = `Classical.choice`. Names without prefix are in namespace `M3`.

| property | status | theorems (axioms) |
|---|---|---|
| C01 A parameter survives marshal/parse exactly when its value fits the 16-bit length | proved | `c01_roundtrip` (cpq), `c01_too_long` (cpq), `c01_iff` (cpq) |
| C02 Parameter wire layout | proved | `c02_layout` (pq), `c02_length` (pq), `c02_tlv` (cpq) |
| C03 Single-parameter parsing accepts exactly the well-formed prefixes | proved | `c03_short` (cpq), `c03_accept` (cpq), `c03_invalid` (cpq), `c03_no_panic` (cpq) |
| C04 Parsing a parameter sequence always terminates without panicking | proved | `c04_total` (cpq), `c04_contained` (cpq) |
| C05 ParseMultiParams accepts exactly a TLV sequence whose last padding may be cut short | proved | `c05_language` (cpq), `c05_accept_iff` (cpq), `c05_unique` (cpq) |
| C06 Parameter lists round-trip | proved | `c06_roundtrip` (cpq), `c06_layout` (pq) |
| C07 32-bit parameters deliver the value they were built from | proved | `c07_aspIdentifier` (cpq), `c07_trafficModeType` (cpq), `c07_networkAppearance` (cpq), `c07_correlationID` (cpq), `c07_errorCode` (cpq), `c07_status` (cpq), `c07_localRoutingKeyIdentifier` (cpq), `c07_registrationStatus` (cpq), `c07_deregistrationStatus` (cpq) |
| C08 24-bit and 8-bit parameters keep exactly the low bits | proved | `c08_destinationPointCode` (cpq), `c08_concernedDestination` (cpq), `c08_congestionLevel` (cpq) |
| C09 Multi-valued parameters return the full list in order | proved | `c09_routingContexts` (pq), `c09_routingContexts_wire` (cpq), `c09_affectedPointCodes` (pq), `c09_affectedPointCodes_wire` (cpq), `c09_originatingPointCodeList` (pq), `c09_originatingPointCodeList_wire` (cpq), `c09_routingContext_first` (pq), `c09_affectedPointCode_first` (pq), `c09_routingContext_first_wire` (cpq), `c09_affectedPointCode_first_wire` (cpq) |
| C10 When the singular accessors panic | proved | `c10_others` (cpq), `c10_routingContext` (pq), `c10_routingContext_otherwise` (pq), `c10_affectedPointCode` (pq), `c10_affectedPointCode_otherwise` (pq), `c10_wire` (cpq) |
| C11 ServiceIndicators padding | proved | `c11_serviceIndicators` (pq), `c11_never_equal` (cpq) |
| C12 User/Cause and Status halves are packed and unpacked consistently | proved | `c12_userCause` (cpq), `c12_status` (cpq) |
| C13 MTP3 Protocol Data round-trips bit for bit | proved | `c13_local` (pq), `c13_wire` (cpq), `c13_parse` (pq), `c13_max` (cpq) |
| C14 Nested parameters (RoutingKey, RegistrationResult, DeregistrationResult) round-trip | proved | `c14_routingKey` (cpq), `c14_routingKey_few` (cpq), `c14_registrationResult` (cpq), `c14_registrationResult_few` (cpq), `c14_deregistrationResult` (cpq), `c14_deregistrationResult_few` (cpq) |
| C15 Accessors never return another parameter's value | proved | `c15_foreign_tag` (pq) |
| C16 Common header round-trips and carries the payload unchanged | proved | `c16_layout` (pq), `c16_roundtrip` (pq), `c16_fail` (pq), `c16_new` (pq) |
| C17 Every constructed message has the RFC 4666 wire layout | proved | `c17_error` (pq), `c17_notify` (pq), `c17_data` (pq), `c17_duna` (pq), `c17_dava` (pq), `c17_daud` (pq), `c17_scon` (pq), `c17_dupu` (pq), `c17_drst` (pq), `c17_aspUp` (pq), `c17_aspDown` (pq), `c17_heartbeat` (pq), `c17_aspUpAck` (pq), `c17_aspDownAck` (pq), `c17_heartbeatAck` (pq), `c17_aspActive` (pq), `c17_aspInactive` (pq), `c17_aspActiveAck` (pq), `c17_aspInactiveAck` (pq), `c17_layout` (pq) |
| C18 Every constructed message round-trips through messages.Parse | proved | `c18_roundtrip` (cpq) |
| C19 Generic messages round-trip | proved | `c19_layout` (pq), `c19_roundtrip` (cpq), `c19_parse` (cpq) |
| C20 messages.Parse is total | proved | `c20_unmarshal` (cpq), `c20_parse` (cpq), `c20_short` (cpq) |
| C21 Which Go type messages.Parse selects | proved | `c21_small` (cpq), `c21_all` (cpq), `c21_collisions` (pq), `c21_accessors` (p) |
| C22 MarshalTo respects the caller's buffer | proved | `c22_marshalTo` (pq), `c22_marshalBinary` (pq) |
| C23 Parameters a message does not define are rejected; defined ones never are | proved | `c23_accept_iff` (cpq), `c23_generic` (cpq), `c23_bad_body` (cpq) |
| C24 Last duplicate wins | proved | `c24_parse` (cpq) |
| C25 Re-encoding a parsed message is stable | proved | `c25_stable` (cpq) |
| C26 Marshalling is repeatable | proved | `c26_repeatable` (pq) |
| C27 UnmarshalBinary into a used value | proved | `c27_typed` (cpq), `c27_generic` (cpq) |
| C28 Encodings are unambiguous | proved | `c28_injective` (cpq) |
| C29 The length field of a received message is never checked | proved | `c29_length_ignored` (cpq) |
| C30 The length field of a constructed message is right | proved | `c30_length` (pq) |
| C31 Point codes survive raw -> string -> raw | proved | `c31_roundtrip` (cpq), `c31_roundtrip_string` (cpq) |
| C32 The formatted point code is the positional representation | proved | `c32_format` (cpq) |
| C33 Variant 4-4-6 does not work | proved | `c33_new` (cpq), `c33_from` (pq), `c33_violated` (pq) |
| C34 ConvertTo keeps the point code, not the variant | proved | `c34_convertTo` (pq), `c34_format` (cpq) |
| C35 NewPointCodeFrom accepts exactly matching digit groups and does not check their range | proved | `c35_accept` (cpq), `c35_in_range` (cpq), `c35_no_range_check` (pq), `c35_bad_variant` (pq) |
| C36 Point codes are distinguished by their formatted string | proved | `c36_injective` (cpq) |
| C37 Enabling logging hangs | proved | `Logger.c37_never_returns` (pq), `Logger.c37_wedged` (pq), `Logger.c37_wedges` (cpq), `Logger.c37_otherwise` (cpq) |
| C38 Config constructors and setters store what they are given | proved | `Config.c38_history` (cpq), `Config.c38_constructors` (cpq), `Config.c38_wire` (pq) |
| C39 Opening a connection without HeartbeatInfo panics; with an unknown network it fails cleanly | proved | `c39_dial_panic` (p), `c39_accept_panic` (p), `c39_newConfig` (cpq), `c39_dial_network` (cpq), `c39_listen` (cpq), `c39_interval` (p) |
| C40 DATA uses streams 1..max, everything else uses stream 0 | proved | `Conn.c40_streams` (cpq), `Conn.c40_single` (cpq) |
| C41 Write sends exactly one DATA built from the configuration | proved | `Conn.c41_write` (cpq), `Conn.c41_writeToStream` (cpq), `Conn.c41_writePD` (cpq), `Conn.c41_writePDToStream` (cpq), `Conn.c41_writeSignal` (cpq) |
| C42 What Read and ReadPD return | proved | `Conn.c42_read` (cpq), `Conn.c42_readPD` (cpq) |
| C43 A DATA sent by one endpoint is delivered intact by the other | proved | `Conn.c43_understood` (cpq), `Conn.c43_unique` (pq), `Conn.c43_handed` (cpq), `Conn.c43_queued` (cpq) |
| C44 Error replies | proved | `Conn.c44_handoff` (cpq), `Conn.c44_reply` (cpq) |
| C45 A heartbeat is answered with its own data | proved | `Conn.c45_heartbeat` (cpq), `Conn.c45_data` (cpq) |
| C46 State() only changes as the received messages dictate | proved | `Conn.c46_state` (cpq), `Conn.c46_settled` (cpq), `Conn.c46_observed` (cpq) |
| C47 Unexpected messages are reported but still obeyed | proved | `Conn.c47_answered` (pq), `Conn.c47_handled` (cpq), `Conn.c47_single` (pq) |
| C48 One received message is processed at a time | proved | `Conn.c48_turns` (cpq), `Conn.c48_between` (cpq) |
| C49 A single undecodable or wrong-version datagram silences the connection | proved | `Conn.c49_silent` (cpq), `Conn.c49_unread` (cpq) |
| C50 Payloads are neither invented nor duplicated | proved | `Conn.c50_taken` (cpq), `Conn.c50_returned` (cpq), `Conn.c50_readPD` (cpq) |
| C51 Payload order is not guaranteed | proved | `Conn.c51_reordered` (pq), `Conn.c51_any` (cpq) |
| C52 No unsolicited acknowledgements | proved | `Conn.c52_acks` (cpq), `Conn.c52_heartbeat` (cpq) |
| C53 Dial/Accept succeed only after activation | proved | `Conn.c53_ends` (cpq), `Conn.c53_opened` (cpq), `Conn.c53_call` (cpq) |
| C54 Re-activation hangs the connection | proved | `Conn.c54_blocked` (cpq), `Conn.c54_hang` (cpq), `Conn.c54_later` (cpq), `Conn.c54_reachable` (pq) |
| C55 Close while a message is in flight can crash the process | proved | `Conn.c55_rest` (cpq), `Conn.c55_close_race` (pq), `Conn.c55_loss_race` (pq), `Conn.c55_close_twice` (pq) |
| C56 A peer can crash the process with one message | proved | `Conn.c56_causes` (cpq), `Conn.c56_poison` (cpq), `Conn.c56_doomed` (cpq) |
| C57 A heartbeat ack with wrong data still counts | proved | `Conn.c57_handled` (cpq), `Conn.c57_counts` (cpq), `Conn.c57_only` (cpq) |
| C58 A heartbeat ack nobody waits for wedges the connection | proved | `Conn.c58_silent` (cpq) |
| C59 Client and server complete the handshake | proved | `Conn.c59_safe` (cpq), `Conn.c59_complete` (cpq), `Conn.c59_reaches` (cpq) |
| C60 State() only ever reports Down, Inactive or Active | proved | `Conn.c60_state` (cpq), `Conn.c60_stateCall` (cpq) |
| C61 StreamID() is always 0 and the stream check never fires | proved | `Conn.c61_stream` (cpq) |
| C62 Nothing is transmitted by Write outside AspActive | proved | `Conn.c62_active` (cpq), `Conn.c62_sent` (cpq) |
| C63 Heartbeat expiry tears the connection down | proved | `Conn.c63_expired` (cpq) |
| C64 A DATA larger than 1500 bytes is never delivered | proved | `Conn.c64_at_most` (cpq), `Conn.c64_lost` (cpq), `Conn.c64_rejected` (cpq), `Conn.c64_silent` (cpq), `Conn.c64_without` (cpq) |
| C65 DisableLogging silences the current logger for good | proved | `Logger.c65_silent` (p), `Logger.c65_discards` (p), `Logger.c65_set` (cpq), `Logger.c65_line` (cpq) |
| C66 Payloads are read in the order in which they were queued | proved | `Conn.c66_drained` (pq), `Conn.c66_fifo` (pq) |
| C67 Why errors are reported | proved | `Conn.c67_because` (cpq), `Conn.c67_unsupported` (cpq) |
| C68 Parameters of variable length deliver the bytes they were built from | proved | `c68_infoString` (cpq), `c68_heartbeatData` (cpq), `c68_diagnosticInformation` (cpq) |
| C69 What accessors make of any peer-supplied value | proved | `c69_uint32` (pq), `c69_parts` (cpq), `c69_lists` (pq), `c69_protocolData` (pq) |
| C70 What the accessors of nested parameters make of any peer-supplied value | proved | `c70_routingKey` (cpq), `c70_registrationResult` (cpq), `c70_deregistrationResult` (cpq), `c70_malformed` (cpq) |
| C71 What the owner of the association does, and which goroutine sends what | proved | `Conn.c71_state` (cpq), `Conn.c71_cancelled` (cpq), `Conn.c71_sender` (cpq) |
| C72 Every understood message lets the connection go on | proved | `Conn.c72_returns` (cpq), `Conn.c72_nothing` (cpq) |
| C73 What the heartbeat goroutine does | proved | `Conn.c73_rounds` (cpq), `Conn.c73_after` (cpq) |
| C74 Close | proved | `Conn.c74_shut` (pq), `Conn.c74_close` (cpq) |
| C75 Marshalling into a buffer of the caller | proved | `c75_param` (pq), `c75_padding` (pq), `c75_header` (pq), `c75_payload` (pq) |
| C76 An idle connection notices nothing | proved | `Conn.c76_deaf` (cpq), `Conn.c76_cancelled` (pq), `Conn.c76_expired` (pq) |
| C77 What a Heartbeat Ack is compared with | proved | `Conn.c77_compared` (cpq), `Conn.c77_race` (pq), `Conn.c77_shared` (pq) |
| C78 A missed start signal disables heartbeats | proved | `Conn.c78_missed` (cpq), `Conn.c78_reachable` (pq) |
| C79 Goroutines left behind | proved | `Conn.c79_leak` (cpq), `Conn.c79_reachable` (pq) |
| C80 Names of messages and states | proved | `c80_names` (none), `c80_parse` (cpq), `c80_distinct` (p), `Conn.c80_state` (p) |
| C81 Exported constants have the numbers of RFC 4666, except users and service indicators | proved | `c81_right` (p), `c81_status` (cpq), `c81_users` (none), `c81_dupu` (cpq), `c81_service` (none) |
| C82 What is read at one end was written at the other | proved | `Conn.c82_integrity` (cpq), `Conn.c82_write` (cpq), `Conn.c82_readPD` (cpq) |
| C83 Nothing is lost between Write and Read | proved | `Conn.c83_received` (cpq), `Conn.c83_sent` (cpq), `Conn.c83_written` (cpq), `Conn.c83_overtaken` (pq) |
| C84 A session without disturbances | proved | `Conn.c84_safe` (cpq), `Conn.c84_rest` (cpq), `Conn.c84_delivered` (cpq) |
| C85 Client and server talking to each other | proved | `Conn.c85_safe` (cpq), `Conn.c85_rest` (cpq), `Conn.c85_delivered` (cpq), `Conn.c85_plain` (cpq), `Conn.c85_write` (cpq) |
| C86 What String shows | proved | `c86_header` (cpq), `c86_param` (cpq), `c86_payload` (cpq), `c86_message` (cpq), `c86_layout` (cpq), `c86_param_layout` (cpq), `c86_header_layout` (cpq), `c86_payload_layout` (cpq), `c86_terse` (cpq), `c86_terse_blind` (cpq) |
| C87 How much a connection does | proved | `Conn.c87_work` (cpq), `Conn.c87_sends` (cpq), `Conn.c87_sends_tight` (pq), `Conn.c87_goroutines` (cpq) |
| C88 Two undisturbed endpoints come to rest with everything delivered | proved | `Conn.c88_bounded` (cpq), `Conn.c88_rest` (cpq), `Conn.c88_delivered` (cpq), `Conn.c88_calls` (cpq), `Conn.c88_reached` (cpq), `Conn.c88_write` (cpq), `Conn.c88_outcome` (cpq) |
| C89 Every way in which a connection comes to rest | proved | `Conn.c89_rest` (cpq), `Conn.c89_occurs` (cpq), `Conn.c89_timeout` (cpq), `Conn.c89_calls` (cpq), `Conn.c89_listening` (cpq), `Conn.c89_healthy` (cpq), `Conn.c89_bounded` (cpq), `Conn.c89_settles` (cpq) |
| C90 What remains of a closed connection | proved | `Conn.c90_down` (cpq), `Conn.c90_left` (cpq), `Conn.c90_forever` (cpq), `Conn.c90_calls` (cpq), `Conn.c90_occurs` (pq), `Conn.c90_beat` (pq) |
| C91 A parsed message is a window on the buffer it was parsed from | proved | `c91_parse` (cpq), `c91_window` (cpq), `c91_unchanged` (cpq), `c91_payload` (cpq), `c91_nested` (cpq), `c91_monitor` (pq) |
| C92 Where a connection has data races and where not | proved | `Conn.c92_state` (cpq), `Conn.c92_only` (cpq), `Conn.c92_none` (cpq), `Conn.c92_occurs` (pq), `Conn.c92_config` (pq) |
| C93 Connections that share a configuration, as those of one Listener | proved | `Conn.c93_each` (pq), `Conn.c93_compared` (cpq), `Conn.c93_product` (cpq), `Conn.c93_disabled` (cpq), `Conn.c93_fatal` (pq), `Conn.c93_confused` (pq) |
| C94 What the timers guarantee | proved | `Conn.c94_returns` (cpq), `Conn.c94_frequent` (cpq), `Conn.c94_waits` (cpq), `Conn.c94_returns_tight` (pq), `Conn.c94_frequent_tight` (pq), `Conn.c94_clock` (pq), `Conn.c94_exists` (pq), `Conn.c94_spacing` (cpq), `Conn.c94_intervals` (cpq), `Conn.c94_work` (cpq), `Conn.c94_expired` (cpq), `Conn.c94_open` (cpq), `Conn.c94_spacing_tight` (pq), `Conn.c94_expired_tight` (pq), `Conn.c94_open_tight` (pq) |
| C95 A session with heartbeats that are answered | proved | `Conn.c95_safe` (cpq), `Conn.c95_count` (cpq), `Conn.c95_rest` (cpq), `Conn.c95_beats` (cpq), `Conn.c95_delivered` (cpq) |
| C96 Two endpoints of this library with heartbeats | proved | `Conn.c96_safe` (cpq), `Conn.c96_count` (cpq), `Conn.c96_rest` (cpq), `Conn.c96_beats` (cpq), `Conn.c96_delivered` (cpq), `Conn.c96_hurried` (pq) |
| C97 Every request is answered or refused | proved | `Conn.c97_handled` (cpq), `Conn.c97_answered` (cpq), `Conn.c97_heartbeats` (cpq) |
| C98 Which error messages.Parse returns | proved | `c98_params` (cpq), `c98_parse` (cpq), `c98_error` (cpq), `c98_unique` (cpq) |
| C99 How the errors of package m3ua can be told apart | proved | `Conn.c99_agree` (pq), `Conn.c99_wrapped` (pq), `Conn.c99_is` (p), `Conn.c99_text` (cpq) |
| C100 Dial, Listen and Accept from their beginning | proved | `Conn.c100_dial` (cpq), `Conn.c100_accept` (pq), `Conn.c100_listen` (cpq), `Conn.c100_closed` (cpq), `Conn.c100_accept_closed` (cpq), `Conn.c100_leak` (pq), `Conn.c100_panic` (pq), `Conn.c100_started` (cpq), `Conn.c100_streams` (cpq), `Conn.c100_accept_panic` (pq), `Conn.c100_accept_started` (pq), `Conn.c100_accept_streams` (cpq), `Conn.c100_conn` (pq) |
| C101 What a failed UnmarshalBinary leaves behind | proved | `c101_outcome` (cpq), `c101_short` (pq), `c101_body` (cpq), `c101_unknown` (cpq), `c101_header` (pq), `c101_nil` (p), `c101_param` (cpq) |
| C102 A connection that leaves AspActive is lost, and a client insists | proved | `Conn.c102_never` (cpq), `Conn.c102_calls` (cpq), `Conn.c102_requests` (cpq), `Conn.c102_received` (cpq), `Conn.c102_suspend` (cpq) |
| C103 What a connection sends is determined by what it has received | proved | `Conn.c103_realized` (cpq), `Conn.c103_once` (cpq), `Conn.c103_exact` (cpq), `Conn.c103_storm` (cpq), `Conn.c103_interleaved` (cpq), `Conn.c103_always` (cpq), `Conn.c103_transcript` (cpq), `Conn.c103_received` (cpq), `Conn.c103_plain` (cpq), `Conn.c103_same` (cpq) |
| C104 What becomes of a datagram that is parsed and marshalled again | proved | `c104_bytes` (cpq), `c104_identity` (cpq), `c104_length` (cpq), `c104_wrong` (pq), `c104_twice` (cpq), `c104_setLength` (pq) |
| C105 Why a connection is closed | proved | `Conn.c105_why` (cpq), `Conn.c105_open` (cpq), `Conn.c105_each` (pq) |
| C106 What appending to the value of a parsed parameter does to the others | proved | `c106_places` (cpq), `c106_append` (cpq), `c106_harmless` (cpq) |
| C107 One parameter in several messages | proved | `c107_lengths` (cpq), `c107_values` (cpq), `c107_shared` (cpq), `c107_same` (cpq), `c107_new` (cpq), `c107_stale` (pq), `c107_broken` (pq) |
| C108 Nil parameters | proved | `c108_new` (pq), `c108_member` (pq), `c108_agree` (cpq), `c108_string` (cpq), `c108_multi` (pq), `c108_missing` (cpq), `c108_first` (cpq) |
| C109 Decoding into a payload variable that already holds something | proved | `c109_protocolData` (pq), `c109_routingKey` (cpq), `c109_registrationResult` (cpq), `c109_deregistrationResult` (cpq), `c109_malformed` (cpq), `c109_mixed` (pq), `c109_fresh` (cpq) |
| C110 A client and a gateway that sends notifications | proved | `Conn.c110_only` (cpq), `Conn.c110_rest` (cpq), `Conn.c110_reached` (cpq) |
| C111 How much room Read needs | proved | `Conn.c111_payload` (cpq), `Conn.c111_read` (cpq), `Conn.c111_attained` (cpq) |
| C112 The program pc-conv and the entry points for fuzzing | proved | `c112_end` (pq), `c112_panic` (cpq), `c112_raw` (cpq), `c112_zero` (pq), `c112_str` (cpq), `c112_both` (cpq), `c112_back` (cpq), `c112_fuzz` (cpq) |
| C113 The example client and the example server | proved | `Conn.c113_setup` (cpq), `Conn.c113_bytes` (cpq), `Conn.c113_read` (cpq), `Conn.c113_outcome` (cpq), `Conn.c113_ways` (cpq), `Conn.c113_beats` (cpq) |
| C114 ErrNotEstablished is final | proved | `Conn.c114_final` (cpq), `Conn.c114_closed` (cpq) |
| C115 A server that ends when Accept fails | proved | `Conn.c115_ends` (pq), `Conn.c115_silent` (pq), `Conn.c115_served` (cpq) |
| C116 The heartbeat data in the configuration are never sent | proved | `Conn.c116_ignored` (pq), `Conn.c116_random` (cpq), `Conn.c116_default` (cpq) |
| C117 Calls made one after the other | proved | `Conn.c117_before` (cpq), `Conn.c117_written` (cpq), `Conn.c117_read` (cpq) |
| C118 What a connection sends by itself, and how long it is | proved | `Conn.c118_own` (cpq), `Conn.c118_length` (cpq), `Conn.c118_fits` (cpq), `Conn.c118_all` (cpq), `Conn.c118_tight` (pq), `Conn.c118_unreadable` (cpq), `Conn.c118_write` (cpq) |
| C119 A failed read of the association is final, and Read does not report it | proved | `Conn.c119_closes` (cpq), `Conn.c119_over` (cpq), `Conn.c119_reads` (cpq), `Conn.c119_after` (cpq), `Conn.c119_occurs` (pq) |
| C120 A user who does not read | proved | `Conn.c120_bound` (pq), `Conn.c120_waits` (pq), `Conn.c120_pile` (cpq), `Conn.c120_unbounded` (cpq), `Conn.c120_fatal` (pq), `Conn.c120_close` (pq), `Conn.c120_occurs` (cpq) |
| C121 A datagram of which only the beginning has arrived | proved | `Conn.c121_means` (cpq), `Conn.c121_poison` (cpq), `Conn.c121_delivered` (cpq), `Conn.c121_crash` (cpq), `c121_params` (cpq), `c121_accepts` (cpq), `c121_message` (cpq), `c121_bare` (cpq), `c121_length` (cpq) |
| C122 A connection that fails before the first answer | proved | `Conn.c122_closed` (cpq), `Conn.c122_waits` (cpq), `Conn.c122_result` (cpq), `Conn.c122_occurs` (cpq) |
| C123 A peer that refuses the client | proved | `Conn.c123_only` (cpq), `Conn.c123_unfinished` (cpq), `Conn.c123_inactive` (cpq), `Conn.c123_result` (cpq), `Conn.c123_endless` (cpq) |
| C124 A client whose peer sends everything back | proved | `Conn.c124_only` (cpq), `Conn.c124_rest` (cpq), `Conn.c124_reached` (cpq) |
| C125 A client that is taken out of service and refused | proved | `Conn.c125_unfinished` (cpq), `Conn.c125_lost` (cpq), `Conn.c125_endless` (cpq) |
| C126 A client that is taken out of service and let in again | proved | `Conn.c126_hangs` (cpq), `Conn.c126_reached` (cpq) |
