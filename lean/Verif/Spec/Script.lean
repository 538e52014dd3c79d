import Verif.Spec.Monitor

/- Specification of everything that a connection sends by itself, heartbeats aside. -/

set_option autoImplicit false

namespace M3.Spec

open M3.Conn

/-- A Heartbeat with another message type: the first three octets, the new type, the length field, the Heartbeat Data. -/
def echo (raw : List UInt8) (m : M3UA) : List UInt8 :=
  raw.take 3 ++ [6] ++ (raw.drop 4).take 4 ++ (presentTlvs [tv (m.field .heartbeatData)]).flatten

/-- What is sent because datagram `raw` was received in state `s`: an Error message (code 1: invalid version, 4: unsupported
message, 6: unexpected message), the acknowledgement, or nothing. `bytes` is the encoding of messages. -/
def answers (c : Config) (bytes : M3UA → List UInt8) (s : St) (raw : List UInt8) : List (List UInt8) :=
  match M3UA.parse raw with
  | .ok m =>
    if raw.getD 0 0 ≠ 1 then (errorMessage c bytes (.invalidVersion (raw.getD 0 0))).toList else
    match m.kind with
    | none => (errorMessage c bytes (.unsupportedMessage m)).toList
    | some k =>
      if handled k = false then (errorMessage c bytes (.unsupportedMessage m)).toList else
      match k with
      | .data | .heartbeatAck => []
      | .heartbeat => if s = .active then [echo raw m] else (errorMessage c bytes (.unexpectedMessage m)).toList
      | k => if expected k s then (ack c k).toList else (errorMessage c bytes (.unexpectedMessage m)).toList
  | _ => []

/-- What is sent in the course of receiving `rs`, starting in state `s`: each datagram is answered in the state that it finds, then it
takes effect, and then the request for the next state is sent. -/
def dialogue (c : Config) (bytes : M3UA → List UInt8) (mode : Mode) : St → List (List UInt8) → List (List UInt8)
  | _, [] => []
  | s, raw :: rs =>
    let s' := (effect raw).getD s
    answers c bytes s raw ++ (request c mode s').toList ++ dialogue c bytes mode s' rs

/-- The same from the beginning, where the state is Down and is asked to be left. -/
def transcript (c : Config) (bytes : M3UA → List UInt8) (mode : Mode) (rs : List (List UInt8)) : List (List UInt8) :=
  (request c mode .down).toList ++ dialogue c bytes mode .down rs

/-- `l` consists of the elements of `a` and of `b`, each in their order. -/
inductive Interleaved {α : Type} : List α → List α → List α → Prop where
  | nil : Interleaved [] [] []
  | left (x : α) {a b l : List α} : Interleaved a b l → Interleaved (x :: a) b (x :: l)
  | right (x : α) {a b l : List α} : Interleaved a b l → Interleaved a (x :: b) (x :: l)

end M3.Spec
