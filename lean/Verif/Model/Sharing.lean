import Verif.Model.Message

/-
Model of parameters as Go has them: messages hold pointers to `Param`, several messages can hold the same one, and `SetLength`, which every constructor
calls, writes to the parameters it finds. The other files of the model treat a message as a value that contains its parameters; C107 shows to what extent
this is the same.
-/

set_option autoImplicit false

namespace M3

open Spec

/-- A message with the given header and parameters: the structures of `messages/*.go`; `none` is `Generic`. The unused fields `AspIdentifier`
(`asp-down.go:19`, ...) are nil. -/
def M3UA.build (h : Header) (f : PName → Option Param) (l : List Param) : Option Kind → M3UA
  | none => .generic ⟨h, l⟩
  | some .error => .error ⟨h, f .errorCode, f .routingContext, f .networkAppearance, f .affectedPointCode, f .diagnosticInformation⟩
  | some .notify => .notify { header := h, status := f .status, aspIdentifier := f .aspIdentifier, routingContext := f .routingContext, infoString := f .infoString }
  | some .data => .data { header := h, networkAppearance := f .networkAppearance, routingContext := f .routingContext, protocolData := f .protocolData, correlationID := f .correlationID }
  | some .duna => .duna { header := h, networkAppearance := f .networkAppearance, routingContext := f .routingContext, affectedPointCode := f .affectedPointCode, infoString := f .infoString }
  | some .dava => .dava { header := h, networkAppearance := f .networkAppearance, routingContext := f .routingContext, affectedPointCode := f .affectedPointCode, infoString := f .infoString }
  | some .daud => .daud { header := h, networkAppearance := f .networkAppearance, routingContext := f .routingContext, affectedPointCode := f .affectedPointCode, infoString := f .infoString }
  | some .scon => .scon { header := h, networkAppearance := f .networkAppearance, routingContext := f .routingContext, affectedPointCode := f .affectedPointCode, concernedDestination := f .concernedDestination, congestionIndications := f .congestionIndications, infoString := f .infoString }
  | some .dupu => .dupu { header := h, networkAppearance := f .networkAppearance, routingContext := f .routingContext, affectedPointCode := f .affectedPointCode, userCause := f .userCause, infoString := f .infoString }
  | some .drst => .drst { header := h, networkAppearance := f .networkAppearance, routingContext := f .routingContext, affectedPointCode := f .affectedPointCode, infoString := f .infoString }
  | some .aspUp => .aspUp { header := h, aspIdentifier := f .aspIdentifier, infoString := f .infoString }
  | some .aspDown => .aspDown { header := h, aspIdentifier := none, infoString := f .infoString }
  | some .heartbeat => .heartbeat { header := h, aspIdentifier := none, heartbeatData := f .heartbeatData }
  | some .aspUpAck => .aspUpAck { header := h, aspIdentifier := f .aspIdentifier, infoString := f .infoString }
  | some .aspDownAck => .aspDownAck { header := h, aspIdentifier := none, infoString := f .infoString }
  | some .heartbeatAck => .heartbeatAck { header := h, aspIdentifier := none, heartbeatData := f .heartbeatData }
  | some .aspActive => .aspActive { header := h, trafficModeType := f .trafficModeType, routingContext := f .routingContext, infoString := f .infoString }
  | some .aspInactive => .aspInactive { header := h, routingContext := f .routingContext, infoString := f .infoString }
  | some .aspActiveAck => .aspActiveAck { header := h, trafficModeType := f .trafficModeType, routingContext := f .routingContext, infoString := f .infoString }
  | some .aspInactiveAck => .aspInactiveAck { header := h, routingContext := f .routingContext, infoString := f .infoString }

/-- A pointer to a message: its type, its header (every constructor makes one of its own), and the parameters that its fields point to, which are
numbered in the order in which they were allocated. `listed` is the field `Params` of `Generic`. -/
structure MsgPtr where
  kind : Option Kind
  header : Header
  named : PName → Option Nat
  listed : List Nat

namespace MsgPtr

/-- What the methods of the message see when the parameters are `heap`. -/
def read (heap : List Param) (m : MsgPtr) : M3UA :=
  M3UA.build m.header (fun n => (m.named n).bind (heap[·]?)) (m.listed.filterMap (heap[·]?)) m.kind

/-- The parameters on which `SetLength` of the message calls `SetLength`: all that are not nil, e.g. `asp-up.go:110-115`; `generic.go:103-105`. -/
def targets (m : MsgPtr) : List Nat := match m.kind with
  | some k => k.params.filterMap m.named
  | none => m.listed

/-- `SetLength` of any type of message, e.g. `asp-up.go:109-118`; `generic.go:102-108`. It writes to the parameters and to the header. -/
def setLength (heap : List Param) (m : MsgPtr) : List Param × MsgPtr :=
  let heap := heap.mapIdx fun i p => if i ∈ m.targets then p.setLength else p
  (heap, { m with header := { m.header with length := UInt32.ofNat (m.read heap).marshalLen } })

end MsgPtr

/-- All parameters and messages of a program, and what `MarshalBinary` has returned so far, with the number of the message. -/
structure Store where
  heap : List Param
  msgs : List MsgPtr
  sent : List (Nat × Bytes)

/-- One statement of a program that uses packages `messages` and `params`. Parameters and messages are numbered in the order in which they are made. -/
inductive Use where
  /-- any constructor of a parameter, or `&params.Param{...}` -/
  | param (p : Param)
  /-- `NewXxx(...)`, with a parameter or nil for each field -/
  | new (k : Kind) (args : PName → Option Nat)
  /-- `messages.New(ver, cls, typ, ...)` -/
  | generic (ver cls typ : UInt8) (args : List Nat)
  /-- `p.Data = d` -/
  | data (a : Nat) (d : Bytes)
  /-- `p.SetLength()` -/
  | length (a : Nat)
  /-- `m.SetLength()` -/
  | lengths (i : Nat)
  /-- `m.Field = p`, or nil -/
  | field (i : Nat) (n : PName) (a : Option Nat)
  /-- `m.MarshalBinary()` -/
  | marshal (i : Nat)

namespace Store

/-- Nothing has been made. -/
def start : Store := ⟨[], [], []⟩

/-- A pointer to a parameter that was made; anything else is nil. -/
def ptr (s : Store) (a : Option Nat) : Option Nat := a.filter (· < s.heap.length)

/-- A constructor: a structure with a header of its own and the given pointers, then `SetLength`, e.g. `asp-up.go:22-37`, `generic.go:24-37`. -/
def make (s : Store) (m : MsgPtr) : Store :=
  let (heap, m) := m.setLength s.heap
  { s with heap, msgs := s.msgs ++ [m] }

/-- What a statement does. One about something that was not made does nothing. -/
def step (s : Store) : Use → Store
  | .param p => { s with heap := s.heap ++ [p] }
  | .new k args => s.make ⟨some k, ⟨1, 0, UInt8.ofNat k.cls, UInt8.ofNat k.typ, 0, []⟩, fun n => s.ptr (args n), []⟩
  | .generic ver cls typ args => s.make ⟨none, ⟨ver, 0, cls, typ, 0, []⟩, fun _ => none, args.filter (· < s.heap.length)⟩
  | .data a d => { s with heap := s.heap.modify a ({ · with data := d }) }
  | .length a => { s with heap := s.heap.modify a Param.setLength }
  | .lengths i => match s.msgs[i]? with
    | none => s
    | some m => let (heap, m) := m.setLength s.heap
      { s with heap, msgs := s.msgs.set i m }
  | .field i n a => { s with msgs := s.msgs.modify i fun m => { m with named := fun n' => if n' = n then s.ptr a else m.named n' } }
  | .marshal i => match s.msgs[i]? with
    | none => s
    | some m => match (m.read s.heap).marshalBinary with
      | .ok (m', b) => { s with msgs := s.msgs.set i { m with header := m'.header }, sent := s.sent ++ [(i, b)] }
      | _ => s

/-- A whole program. -/
def run (s : Store) (us : List Use) : Store := us.foldl step s

end Store

end M3
