import Verif.Model.Message
import Verif.Model.ParamKinds

/-
Model of the memory that parsed messages share with the buffer they were parsed from. `Model/Params.lean`, `Header.lean` and
`Msg/*.lean` give the values of a message at the moment of parsing; here a slice is a window on the buffer, so that one can say
what the message contains after the buffer has changed. The functions are the same Go functions again, and the theorems of
`Props/Memory.lean` show that at the moment of parsing both models agree.
-/

set_option autoImplicit false

namespace M3

/-- A slice `b[start:start+len]` of one buffer `b` whose contents may change. -/
structure Window where
  start : Nat
  len : Nat
  deriving DecidableEq, Repr

namespace Window

/-- What the slice contains when the buffer contains `mem`. -/
def read (mem : Bytes) (s : Window) : Bytes := (mem.drop s.start).take s.len

/-- `append(s, xs...)`, for a user who appends to a slice of an array that contains `mem`, and whose capacity reaches to the end of it, as that of
`b[i:j]` does: what the array contains afterwards, and the slice that is returned; `none` if it has an array of its own. -/
def append (mem : Bytes) (s : Window) (xs : Bytes) : Bytes × Option Window :=
  if s.start + s.len + xs.length ≤ mem.length then
    (mem.take (s.start + s.len) ++ xs ++ mem.drop (s.start + s.len + xs.length), some ⟨s.start, s.len + xs.length⟩)
  else (mem, none)

/-- `s[i:j]` shares the memory of `s`. The capacity is taken to be the length, as in `rsub`. -/
def sub (s : Window) (i j : Nat) : Res Window := if i ≤ j ∧ j ≤ s.len then .ok ⟨s.start + i, j - i⟩ else .panic

end Window

/-- `*Param`, `params.go:71-75`, as it lies in memory. -/
structure ParamRef where
  tag : UInt16
  length : UInt16
  data : Window
  deriving DecidableEq, Repr

namespace ParamRef

/-- What the methods of the parameter see when the buffer contains `mem`. -/
def read (mem : Bytes) (p : ParamRef) : Param := ⟨p.tag, p.length, p.data.read mem⟩

/-- `(*Param).UnmarshalBinary`, `params.go:217-231`: tag and length are copied, `p.Data = b[4:p.Length]` is not. -/
def unmarshalBinary (mem : Bytes) (b : Window) : Res ParamRef := do
  if b.len < 4 then .err .paramTooShortToParse else
  let tag ← getUint16 ((← b.sub 0 2).read mem)
  let length ← getUint16 ((← b.sub 2 4).read mem)
  if length.toNat > b.len ∨ length < 4 then .err .paramInvalidLength else
  let data ← b.sub 4 length.toNat
  return ⟨tag, length, data⟩

/-- `(*Param).Padding`, `params.go:234-240`; it depends on the length of the data only. -/
def padding (p : ParamRef) : Nat :=
  let x := p.data.len % 4
  if x = 0 then 0 else 4 - x

end ParamRef

/-- `ParseMultiParams`, `params.go:282-301`, with the iteration bound of `parseMultiLoop`. -/
def parseMultiRef (mem : Bytes) : Nat → Window → Res (List ParamRef)
  | fuel, b =>
    if b.len = 0 then .ok [] else
    match fuel with
    | 0 => .diverge
    | fuel + 1 => do
      let p ← ParamRef.unmarshalBinary mem b
      if b.len < p.length.toNat + p.padding then return [p] else
      let b' ← b.sub (p.length.toNat + p.padding) b.len
      let ps ← parseMultiRef mem fuel b'
      return p :: ps

/-- `*Header`, `messages/header.go:14-21`, as it lies in memory. -/
structure HeaderRef where
  version : UInt8
  reserved : UInt8
  cls : UInt8
  typ : UInt8
  length : UInt32
  payload : Window
  deriving DecidableEq, Repr

namespace HeaderRef

/-- What is seen of the header when the buffer contains `mem`. -/
def read (mem : Bytes) (h : HeaderRef) : Header := ⟨h.version, h.reserved, h.cls, h.typ, h.length, h.payload.read mem⟩

/-- `(*Header).UnmarshalBinary`, `header.go:74-87`: `h.Payload = b[8:l]` shares the memory of `b`. -/
def unmarshalBinary (mem : Bytes) (b : Window) : Res HeaderRef := do
  if b.len < 8 then .err .msgTooShortToParse else
  let version ← rindex (b.read mem) 0
  let reserved ← rindex (b.read mem) 1
  let cls ← rindex (b.read mem) 2
  let typ ← rindex (b.read mem) 3
  let length ← getUint32 ((← b.sub 4 8).read mem)
  let payload ← b.sub 8 b.len
  return ⟨version, reserved, cls, typ, length, payload⟩

end HeaderRef

/-- What `UnmarshalBinary` of the 20 types does once header and parameters are parsed, e.g. `messages/notify.go:121-134`: it stores
pointers to them. (`Generic`: `generic.go:88`.) -/
def M3UA.assign (m : M3UA) (h : Header) (ps : List Param) : Res M3UA := match m with
  | .error x => do return .error (← { x with header := h }.setParams ps)
  | .notify x => do return .notify (← { x with header := h }.setParams ps)
  | .data x => do return .data (← { x with header := h }.setParams ps)
  | .duna x => do return .duna (← { x with header := h }.setParams ps)
  | .dava x => do return .dava (← { x with header := h }.setParams ps)
  | .daud x => do return .daud (← { x with header := h }.setParams ps)
  | .scon x => do return .scon (← { x with header := h }.setParams ps)
  | .dupu x => do return .dupu (← { x with header := h }.setParams ps)
  | .drst x => do return .drst (← { x with header := h }.setParams ps)
  | .aspUp x => do return .aspUp (← { x with header := h }.setParams ps)
  | .aspDown x => do return .aspDown (← { x with header := h }.setParams ps)
  | .heartbeat x => do return .heartbeat (← { x with header := h }.setParams ps)
  | .aspUpAck x => do return .aspUpAck (← { x with header := h }.setParams ps)
  | .aspDownAck x => do return .aspDownAck (← { x with header := h }.setParams ps)
  | .heartbeatAck x => do return .heartbeatAck (← { x with header := h }.setParams ps)
  | .aspActive x => do return .aspActive (← { x with header := h }.setParams ps)
  | .aspInactive x => do return .aspInactive (← { x with header := h }.setParams ps)
  | .aspActiveAck x => do return .aspActiveAck (← { x with header := h }.setParams ps)
  | .aspInactiveAck x => do return .aspInactiveAck (← { x with header := h }.setParams ps)
  | .generic x => .ok (.generic { x with header := h, params := x.params ++ ps })

/-- A parsed message in memory: a value of the type that `Parse` selected, and the header and the parameters that it points to. -/
structure MsgRef where
  selected : M3UA
  header : HeaderRef
  params : List ParamRef

/-- What is seen of the message when the buffer contains `mem`: since it stores pointers, in the order of the input, it looks like a
message into which the present values were stored in that order. -/
def MsgRef.read (mem : Bytes) (m : MsgRef) : Res M3UA := m.selected.assign (m.header.read mem) (m.params.map (ParamRef.read mem))

/-- `messages.Parse`, `message.go:114-177`, on a buffer that contains `mem`. -/
def M3UA.parseRef (mem : Bytes) : Res MsgRef := do
  if mem.length < 4 then .err .msgTooShortToParse else
  let c ← rindex mem 2
  let t ← rindex mem 3
  let h ← HeaderRef.unmarshalBinary mem ⟨0, mem.length⟩
  let ps ← parseMultiRef mem h.payload.len h.payload
  let m : MsgRef := ⟨select (combine c t), h, ps⟩
  let _ ← m.read mem
  return m

/-- `*ProtocolDataPayload`, `params/protocol-data.go:32-40`, as it lies in memory. -/
structure PayloadRef where
  opc : UInt32
  dpc : UInt32
  si : UInt8
  ni : UInt8
  mp : UInt8
  sls : UInt8
  data : Window
  deriving DecidableEq, Repr

namespace PayloadRef

/-- What is seen of the payload when the buffer contains `mem`. -/
def read (mem : Bytes) (p : PayloadRef) : ProtocolDataPayload := ⟨p.opc, p.dpc, p.si, p.ni, p.mp, p.sls, p.data.read mem⟩

/-- `(*ProtocolDataPayload).UnmarshalBinary`, `protocol-data.go:115-129`: `p.Data = b[12:]` shares the memory of the parameter, hence of the buffer. -/
def unmarshalBinary (mem : Bytes) (b : Window) : Res PayloadRef := do
  if b.len < 12 then .err .paramTooShortToParse else
  let opc ← getUint32 ((← b.sub 0 4).read mem)
  let dpc ← getUint32 ((← b.sub 4 8).read mem)
  let si ← rindex (b.read mem) 8
  let ni ← rindex (b.read mem) 9
  let mp ← rindex (b.read mem) 10
  let sls ← rindex (b.read mem) 11
  let data ← b.sub 12 b.len
  return ⟨opc, dpc, si, ni, mp, sls, data⟩

end PayloadRef

/-- The buffers of a connection: the one that `monitor` reads into (`fsm.go:207`), and the copies it made (`fsm.go:234-235`), oldest
first. -/
structure Buffers where
  buf : Bytes
  raws : List Bytes

namespace Buffers

/-- `buf := make([]byte, 1500)`, `fsm.go:207`. -/
def start : Buffers := ⟨List.replicate 1500 0, []⟩

/-- `SCTPRead(buf)` puts the first bytes of the datagram into `buf`, leaving the rest of `buf` as it was (`fsm.go:228`); then
`raw := make([]byte, n); copy(raw, buf)` (`fsm.go:234-235`), where `copy` stops at the shorter of the two. -/
def receive (s : Buffers) (d : Bytes) : Buffers :=
  let n := min d.length s.buf.length
  let buf := d.take n ++ s.buf.drop n
  ⟨buf, s.raws ++ [(Slice.make n).copy buf]⟩

end Buffers

end M3
