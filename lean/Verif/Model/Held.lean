import Verif.Model.Message

/- Messages as variables of the user: the embedded `*Header` may be nil, and what a call that fails has already changed is kept.
`Model/Message.lean` has the methods on messages with a header; `Held` adds the others. -/

set_option autoImplicit false

namespace M3

/-- One iteration of the loop of `UnmarshalBinary` (e.g. `messages/asp-up.go:96-103`) for the dynamic type of the message. (`Generic` has no such loop.) -/
def M3UA.setParam (pr : Param) : M3UA → Res M3UA
  | .error m => m.setParam pr >>= fun m => .ok (.error m)
  | .notify m => m.setParam pr >>= fun m => .ok (.notify m)
  | .data m => m.setParam pr >>= fun m => .ok (.data m)
  | .duna m => m.setParam pr >>= fun m => .ok (.duna m)
  | .dava m => m.setParam pr >>= fun m => .ok (.dava m)
  | .daud m => m.setParam pr >>= fun m => .ok (.daud m)
  | .scon m => m.setParam pr >>= fun m => .ok (.scon m)
  | .dupu m => m.setParam pr >>= fun m => .ok (.dupu m)
  | .drst m => m.setParam pr >>= fun m => .ok (.drst m)
  | .aspUp m => m.setParam pr >>= fun m => .ok (.aspUp m)
  | .aspDown m => m.setParam pr >>= fun m => .ok (.aspDown m)
  | .heartbeat m => m.setParam pr >>= fun m => .ok (.heartbeat m)
  | .aspUpAck m => m.setParam pr >>= fun m => .ok (.aspUpAck m)
  | .aspDownAck m => m.setParam pr >>= fun m => .ok (.aspDownAck m)
  | .heartbeatAck m => m.setParam pr >>= fun m => .ok (.heartbeatAck m)
  | .aspActive m => m.setParam pr >>= fun m => .ok (.aspActive m)
  | .aspInactive m => m.setParam pr >>= fun m => .ok (.aspInactive m)
  | .aspActiveAck m => m.setParam pr >>= fun m => .ok (.aspActiveAck m)
  | .aspInactiveAck m => m.setParam pr >>= fun m => .ok (.aspInactiveAck m)
  | .generic m => .ok (.generic m)

/-- The assignment of `ParseHeader(b)` to the embedded pointer, the first statement of every `UnmarshalBinary` (e.g. `messages/asp-up.go:86`). -/
def M3UA.putHeader (h : Header) : M3UA → M3UA
  | .error m => .error { m with header := h }
  | .notify m => .notify { m with header := h }
  | .data m => .data { m with header := h }
  | .duna m => .duna { m with header := h }
  | .dava m => .dava { m with header := h }
  | .daud m => .daud { m with header := h }
  | .scon m => .scon { m with header := h }
  | .dupu m => .dupu { m with header := h }
  | .drst m => .drst { m with header := h }
  | .aspUp m => .aspUp { m with header := h }
  | .aspDown m => .aspDown { m with header := h }
  | .heartbeat m => .heartbeat { m with header := h }
  | .aspUpAck m => .aspUpAck { m with header := h }
  | .aspDownAck m => .aspDownAck { m with header := h }
  | .heartbeatAck m => .heartbeatAck { m with header := h }
  | .aspActive m => .aspActive { m with header := h }
  | .aspInactive m => .aspInactive { m with header := h }
  | .aspActiveAck m => .aspActiveAck { m with header := h }
  | .aspInactiveAck m => .aspInactiveAck { m with header := h }
  | .generic m => .generic { m with header := h }

/-- `(*Param).UnmarshalBinary`, `messages/params/params.go:217-231`: the variable after the call, and the error. Tag and length are stored before the
length is checked. -/
def Param.unmarshalKept (b : Bytes) (p : Param) : Param × Res Unit :=
  if b.length < 4 then (p, .err .paramTooShortToParse) else
  match (do let t ← getUint16 (← rsub b 0 2); let l ← getUint16 (← rsub b 2 4); return (t, l) : Res (UInt16 × UInt16)) with
  | .ok (tag, length) =>
    let p := { p with tag := tag, length := length }
    if length.toNat > b.length ∨ length < 4 then (p, .err .paramInvalidLength) else
    match rsub b 4 length.toNat with
    | .ok data => ({ p with data := data }, .ok ())
    | _ => (p, .panic)
  | _ => (p, .panic)

/-- A variable of one of the message types. If its `*Header` is nil, the header of `msg` means nothing. -/
structure Held where
  msg : M3UA
  hasHeader : Bool

namespace Held

/-- A composite literal without a header, such as `&messages.AspUp{}` (`messages/asp-up.go:76`), with any parameters. -/
def bare (m : M3UA) : Held := ⟨m, false⟩

/-- The result of a constructor, or of a parsing function. -/
def full (m : M3UA) : Held := ⟨m, true⟩

/-- The loop over the parameters, e.g. `messages/asp-up.go:95-104`: what was stored before the error is kept. -/
def keep (m : M3UA) : List Param → Held × Res Unit
  | [] => (full m, .ok ())
  | pr :: prs =>
    match m.setParam pr with
    | .ok m' => keep m' prs
    | .err e => (full m, .err e)
    | .panic => (full m, .panic)
    | .diverge => (full m, .diverge)

/-- `UnmarshalBinary`, e.g. `messages/asp-up.go:84-106` and `messages/generic.go:77-90`: the variable after the call, and the error. `ParseHeader`
returns nil with an error (`messages/header.go:66-69`), and that nil is stored. -/
def unmarshalBinary (b : Bytes) (v : Held) : Held × Res Unit :=
  match Header.parse b with
  | .ok h =>
    let m := v.msg.putHeader h
    match parseMultiParams h.payload with
    | .ok prs =>
      match m with
      | .generic g => (full (.generic { g with params := g.params ++ prs }), .ok ())
      | m => keep m prs
    | .err e => (full m, .err e)
    | .panic => (full m, .panic)
    | .diverge => (full m, .diverge)
  | .err e => (⟨v.msg, false⟩, .err e)
  | .panic => (v, .panic)
  | .diverge => (v, .diverge)

/-- `MarshalLen`, e.g. `messages/asp-up.go:121-130`: does not need the header. -/
def marshalLen (v : Held) : Nat := v.msg.marshalLen

/-- `MarshalTo`, e.g. `messages/asp-up.go:50-72`: after the check of the length, `a.Header.Payload = …` dereferences the header. -/
def marshalTo (b : Slice) (v : Held) : Res (M3UA × Bytes) :=
  if v.hasHeader then v.msg.marshalTo b
  else if b.len < v.marshalLen then .err .msgTooShortToMarshal
  else .panic

/-- `MarshalBinary`, e.g. `messages/asp-up.go:41-47`. -/
def marshalBinary (v : Held) : Res (M3UA × Bytes) :=
  if v.hasHeader then v.msg.marshalBinary
  else do
    let b := Slice.make v.marshalLen
    let (m, mem) ← v.marshalTo b
    return (m, { b with mem := mem }.bytes)

/-- `Version`, e.g. `messages/asp-up.go:142-144`: `a.Header.Version`. -/
def version (v : Held) : Res UInt8 := if v.hasHeader then .ok v.msg.version else .panic

/-- `MessageClass`, e.g. `messages/asp-up.go:152-154`: a constant, except for `Generic` (`messages/generic.go:134-136`). -/
def messageClass (v : Held) : Res UInt8 :=
  match v.msg with
  | .generic _ => if v.hasHeader then .ok v.msg.messageClass else .panic
  | m => .ok m.messageClass

/-- `MessageType`, e.g. `messages/asp-up.go:147-149`, `messages/generic.go:129-131`. -/
def messageType (v : Held) : Res UInt8 :=
  match v.msg with
  | .generic _ => if v.hasHeader then .ok v.msg.messageType else .panic
  | m => .ok m.messageType

end Held

end M3
