import Verif.Spec.Meaning
import Verif.Lemmas.Messages

/- Specification of how received messages and errors are answered. -/

set_option autoImplicit false

namespace M3.Spec

open M3.Conn

/-- An error reported to the monitor at a trace entry. -/
def complaint? : Ev → Option CErr
  | ⟨.sendErr e, _⟩ => some e
  | _ => none

/-- All errors reported to the monitor. -/
def complaints (l : List Rec) : List CErr := l.filterMap fun x => complaint? x.ev

/-- A state reported to the monitor at a trace entry. -/
def reported? : Ev → Option St
  | ⟨.sendState s, _⟩ => some s
  | _ => none

/-- All states reported to the monitor. -/
def reports (l : List Rec) : List St := l.filterMap fun x => reported? x.ev

/-- Messages that the library handles. SSNM messages can be decoded but are not handled. -/
def handled : Kind → Bool
  | .data | .aspUp | .aspUpAck | .aspDown | .aspDownAck | .aspActive | .aspActiveAck | .aspInactive | .aspInactiveAck
  | .heartbeat | .heartbeatAck | .error | .notify => true
  | _ => false

/-- States in which the library accepts a message without complaint. (An ASP Down Ack is accepted in Down only.) -/
def expected : Kind → St → Bool
  | .aspUp, s | .aspUpAck, s => s = .down
  | .aspDown, s => s = .inactive ∨ s = .active
  | .aspDownAck, s => ¬ (s = .inactive ∨ s = .active)
  | .aspActive, s | .aspActiveAck, s => s = .inactive
  | .aspInactive, s | .aspInactiveAck, s => s = .active
  | .heartbeat, s | .heartbeatAck, s | .data, s => s = .active
  | _, _ => true

/-- The datagram that answers a message accepted without complaint: the acknowledgements of RFC 4666, 3.5 and 3.7,
with the parameters of the configuration. -/
def ack (c : Config) : Kind → Option (List UInt8)
  | .aspUp => some (message 1 3 4 (presentTlvs [tv c.aspIdentifier]))
  | .aspDown => some (message 1 3 5 [])
  | .aspActive => some (message 1 4 3 (presentTlvs [tv c.trafficModeType, tv c.routingContexts]))
  | .aspInactive => some (message 1 4 4 (presentTlvs [tv c.routingContexts]))
  | _ => none

/-- What the handler of a message of kind `k` has observed (`obs`), sent (`snt`), complained about (`cmp`) when it
reports state `s`; `d` is the answer if it is accepted, `e` the complaint if not. -/
def Handled (k : Kind) (d : Option (List UInt8)) (e : CErr) (obs : List St) (snt : List Sent) (cmp : List CErr)
    (s : St) : Prop :=
  (∃ st, obs.head? = some st ∧
    if expected k st then match d with
      | none => snt = [] ∧ cmp = []
      | some d => ∃ x, snt = [x] ∧ x.bytes = d ∧ x.stream = 0 ∧ x.ppid = 3 ∧
          cmp = if x.answer = none then [.sctp] else []
    else snt = [] ∧ cmp = [e]) ∧
  match commands k with
  | some s' => s = s'
  | none => obs.getLast? = some s

/-- The Error message sent for an error, RFC 4666, 3.8.1: error code (tag 12); for code 6 also routing contexts,
network appearance and affected point code (tag 18); for codes 3 and 4 diagnostic information (tag 7) with the first 40
bytes of the offending message. Other errors have no reply. -/
def errorMessage (c : Config) (bytes : M3UA → List UInt8) : CErr → Option (List UInt8)
  | .invalidVersion _ => some (message 1 0 0 [tlv 12 (be32 1)])
  | .unsupportedClass m => some (message 1 0 0 [tlv 12 (be32 3), tlv 7 ((bytes m).take 40)])
  | .unsupportedMessage m => some (message 1 0 0 [tlv 12 (be32 4), tlv 7 ((bytes m).take 40)])
  | .unexpectedMessage _ => some (message 1 0 0 (presentTlvs [some (12, be32 6), tv c.routingContexts,
      tv c.networkAppearance, some (18, be32 c.originatingPointCode.toNat)]))
  | .invalidStream _ => some (message 1 0 0 [tlv 12 (be32 9)])
  | .aspIDRequired => some (message 1 0 0 [tlv 12 (be32 14)])
  | _ => none

/-- A goroutine closing the connection has got as far as `l`: first case if the state was Down already. -/
def closes (l : List Op) : Prop :=
  l <+: [.lock, .getSt, .sctpClose, .unlock, .broadcast] ∨
  l <+: [.lock, .getSt, .closeEst, .closeAck, .closeData, .putSt .down, .sctpClose, .unlock, .broadcast]

/-- Operations that are neither sending nor looking at the association's parameters. -/
def others (l : List Ev) : List Op := (l.map Ev.op).filter fun o => match o with
  | .info | .write .. => false
  | _ => true

/-- `l` is what the monitor has done so far about an error whose reply is `d`, before turning to anything else;
`final`: it has not turned to anything else. If there is a reply it is sent once, and if that fails the connection is closed.
Without a reply the connection is closed. -/
def Answered (d : Option (List UInt8)) (l : List Ev) (final : Prop) : Prop :=
  match d with
  | some d =>
    (∃ n, l.filterMap sent? = [⟨d, 0, 3, some n⟩] ∧ others l = []) ∨
    (final ∧ l.filterMap sent? = [] ∧ others l = []) ∨
    (final ∧ l.filterMap sent? = [⟨d, 0, 3, none⟩] ∧ closes (others l))
  | none => final ∧ l.filterMap sent? = [] ∧ closes (others l)

/-- Bytes that `handleHeartbeatAck` compares with at a trace entry: the data of the last heartbeat. -/
def beat? : Ev → Option (List UInt8)
  | ⟨.getBeat, b⟩ => some b
  | _ => none

/-- Whether a trace entry acknowledges a heartbeat towards the goroutine that sent it. -/
def acks (l : List Rec) : Nat := l.countP fun x => x.ev.op = .sendAck

/-- What the handler of a Heartbeat Ack with data `d` has observed, looked up, sent, complained about and how often it has
told the heartbeat goroutine that an acknowledgement has arrived, when it reports state `s`. -/
def AckHandled (d : Option (List UInt8)) (e : CErr) (obs : List St) (mine : List (List UInt8)) (snt : List Sent)
    (cmp : List CErr) (n : Nat) (s : St) : Prop :=
  n = 1 ∧ snt = [] ∧ obs.getLast? = some s ∧
  match obs.head? with
  | none => False
  | some st => if st = .active then ∃ b, mine = [b] ∧ cmp = (if d = some b then [] else [e]) else cmp = [e]

end M3.Spec
