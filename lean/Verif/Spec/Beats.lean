import Verif.Spec.Handling

/- Specification of what the goroutine that sends heartbeats does. -/

set_option autoImplicit false

namespace M3.Spec

open M3.Conn

/-- The beginning of a round in which a heartbeat is sent: 128 random bytes are drawn and sent in a Heartbeat message (class 3,
type 3, parameter 9) on stream 0, with the result `r`. -/
def beaten (d : List UInt8) (r : Option Nat) : List Ev :=
  [⟨.rand, some d⟩, ⟨.info, (⟨3, 0⟩ : Info)⟩, ⟨.write (message 1 3 3 [tlv 9 d]) ⟨3, 0⟩, r⟩]

/-- A complete round; `true` if another one follows. -/
inductive BeatRound : List Ev → Bool → Prop where
  /-- no random bytes -/
  | noRandom : BeatRound [⟨.rand, (none : Option (List UInt8))⟩, ⟨.sendErr .rand, ()⟩] false
  /-- the heartbeat could not be sent -/
  | unsent (d : List UInt8) : d.length = 128 →
      BeatRound (beaten d none ++ [⟨.sendErr .failedToWriteSignal, ()⟩]) false
  /-- the context was cancelled before an acknowledgement arrived -/
  | cancelled (d : List UInt8) (n : Nat) : d.length = 128 →
      BeatRound (beaten d (some n) ++ [⟨.setBeat, ()⟩, ⟨.ackSelect, AckEv.ctx⟩]) false
  /-- the connection was closed before an acknowledgement arrived -/
  | closed (d : List UInt8) (n : Nat) : d.length = 128 →
      BeatRound (beaten d (some n) ++ [⟨.setBeat, ()⟩, ⟨.ackSelect, AckEv.closed⟩]) false
  /-- the timer expired before an acknowledgement arrived -/
  | expired (d : List UInt8) (n : Nat) : d.length = 128 →
      BeatRound (beaten d (some n) ++ [⟨.setBeat, ()⟩, ⟨.ackSelect, AckEv.timer⟩, ⟨.sendErr .heartbeatExpired, ()⟩]) false
  /-- an acknowledgement arrived, and the interval passed (`stop = false`) or the context was cancelled (`stop = true`) -/
  | acked (d : List UInt8) (n : Nat) (stop : Bool) : d.length = 128 →
      BeatRound (beaten d (some n) ++ [⟨.setBeat, ()⟩, ⟨.ackSelect, AckEv.ack⟩, ⟨.sleepSelect, stop⟩]) (!stop)

end M3.Spec
