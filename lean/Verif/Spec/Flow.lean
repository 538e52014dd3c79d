import Verif.Spec.Meaning

/- Specification of which payloads and answers received datagrams give rise to. -/

set_option autoImplicit false

namespace M3.Spec

open M3.Conn

/-- The value of the Protocol Data parameter that stands for `pd` (RFC 4666, 3.3.1). -/
def valueOf (pd : ProtocolDataPayload) : List UInt8 :=
  protocolData pd.originatingPointCode.toNat pd.destinationPointCode.toNat pd.serviceIndicator.toNat
    pd.networkIndicator.toNat pd.messagePriority.toNat pd.signalingLinkSelection.toNat pd.data

/-- A received datagram is a DATA message with payload `pd`. -/
def carries (raw : List UInt8) (pd : ProtocolDataPayload) : Bool :=
  match M3UA.parse raw with
  | .ok (.data m) => raw.getD 0 0 = 1 ∧ m.protocolData.map Param.data = some (valueOf pd)
  | _ => false

/-- A goroutine of the user calling a method. -/
def ofUser : Gor → Bool
  | .api _ => true
  | _ => false

/-- The datagrams the library has handed to SCTP on its own, not for a method called by the user. -/
def ownSends (l : List Rec) : List Sent := sends (l.filter fun x => ¬ ofUser x.gor)

/-- The payload a trace entry puts into the queue (or drops, if the context is done). -/
def queued? : Ev → Option ProtocolDataPayload
  | ⟨.sendData pd, _⟩ => some pd
  | _ => none

/-- All payloads put into the queue (or dropped, if the context is done). -/
def queues (l : List Rec) : List ProtocolDataPayload := l.filterMap fun x => queued? x.ev

/-- `res` is a result of `Read` or `ReadPD` that returns the payload `pd`; `Read` returns its length and possibly not all of
its bytes. -/
def yields (pd : ProtocolDataPayload) (res : ApiRes) : Prop :=
  res = .pd pd ∨ ∃ n, res = .data pd.data.length (pd.data.take n)

/-- `res` returns a payload, and one of the set `P`, whichever payload it is. -/
def returnsOnly (P : ProtocolDataPayload → Prop) (res : ApiRes) : Prop :=
  (∃ pd, yields pd res) ∧ ∀ pd, yields pd res → P pd

end M3.Spec
