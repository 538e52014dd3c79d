import Verif.Model.Conn.Sys
import Verif.Spec.Wire
import Verif.Spec.Table

/-
Specification of connections: what can be observed in a trace, and what received datagrams mean. Apart from
the types of the trace entries this does not refer to the model.
-/

set_option autoImplicit false

namespace M3.Spec

open M3.Conn

/-- A datagram handed to SCTP: the bytes, the stream, the payload protocol identifier, and what SCTP answered
(`none`: an error, `some n`: `n` bytes accepted). -/
structure Sent where
  bytes : List UInt8
  stream : UInt16
  ppid : UInt32
  answer : Option Nat
  deriving DecidableEq

/-- The datagram a trace entry hands to SCTP, if any. -/
def sent? : Ev → Option Sent
  | ⟨.write b i, r⟩ => some ⟨b, i.stream, i.ppid, r⟩
  | _ => none

/-- All datagrams handed to SCTP. -/
def sends (l : List Rec) : List Sent := l.filterMap fun x => sent? x.ev

/-- The datagram a trace entry receives, if any. -/
def received? : Ev → Option (List UInt8)
  | ⟨.read _, r⟩ => r
  | _ => none

/-- All datagrams received. -/
def receives (l : List Rec) : List (List UInt8) := l.filterMap fun x => received? x.ev

/-- The result a call of the user returns at a trace entry, if any. -/
def returned? : Ev → Option ApiRes
  | ⟨.done r, _⟩ => some r
  | _ => none

/-- All results returned by calls of the user. -/
def returns (l : List Rec) : List ApiRes := l.filterMap fun x => returned? x.ev

/-- The state reported by `State()` at a trace entry, if any (also inside other methods). -/
def observed? : Ev → Option St
  | ⟨.state, s⟩ => some s
  | _ => none

/-- All states that were observed. -/
def observes (l : List Rec) : List St := l.filterMap fun x => observed? x.ev

/-- What a trace entry took out of the queue of received payloads; `some none`: the queue was closed. -/
def took? : Ev → Option (Option ProtocolDataPayload)
  | ⟨.recvData, r⟩ => some r
  | _ => none

/-- Everything taken out of the queue of received payloads. -/
def takes (l : List Rec) : List (Option ProtocolDataPayload) := l.filterMap fun x => took? x.ev

/-- Class and type octets of a datagram (RFC 4666, 3.1). -/
def octets (d : List UInt8) : UInt8 × UInt8 := (d.getD 2 0, d.getD 3 0)

/-- An attempt to read from SCTP. -/
def isRead : Ev → Bool
  | ⟨.read _, _⟩ => true
  | _ => false

/-- Whose turn it is: the goroutine of `Dial` / `Accept` that starts the connection, the monitor, or the
handler of a datagram. -/
inductive Turn where
  | start | ready | busy (raw : Bytes)
  deriving DecidableEq

/-- Taking turns: a datagram is read only when the monitor has its turn, which passes it on to the handler of that
datagram; reporting a state passes it back. `none`: somebody acted out of turn. -/
def turns : Turn → List Rec → Option Turn
  | p, [] => some p
  | p, ⟨_, g, .sendState _, _⟩ :: tr =>
    match p, g with
    | .start, .start => turns .ready tr
    | .busy raw, .packet raw' => if raw = raw' then turns .ready tr else none
    | _, _ => none
  | p, ⟨_, _, .read _, r⟩ :: tr =>
    match p, r with
    | .ready, some raw => turns (.busy raw) tr
    | .ready, none => turns .ready tr
    | _, _ => none
  | p, _ :: tr => turns p tr

/-- Somebody has closed the association. -/
def shut (l : List Rec) : Prop := ∃ x ∈ l, x.ev.op = .sctpClose

end M3.Spec
