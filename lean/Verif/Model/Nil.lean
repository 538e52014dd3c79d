import Verif.Model.Message
import Verif.Model.Strings

/- Nil pointers to parameters in the hands of the user: as receivers of the methods of `*Param`, and as members of the lists that `messages.New`
and `params.MarshalMultiParams` take. The other models have these pointers where the code expects nil (`Option Param` in the typed messages). -/

set_option autoImplicit false

namespace M3

/-- `*params.Param`; `none` is nil. -/
abbrev ParamPtr := Option Param

namespace ParamPtr

/-- A method of `*Param` on a pointer. Every one of them but `String` and the constructors' helpers reads or writes a field of the receiver before anything
else: the accessors `p.Tag` (e.g. `messages/params/routing-context.go:25`), `MarshalLen` `p.Data` (`params.go:244`), `SetLength` likewise (`params.go:249`). -/
def call {α : Type} (f : Param → Res α) : ParamPtr → Res α
  | none => .panic
  | some p => f p

/-- `(*Param).MarshalLen`, `params.go:243-245`. -/
def marshalLen (p : ParamPtr) : Res Nat := p.call fun p => .ok p.marshalLen

/-- `(*Param).SetLength`, `params.go:248-250`: the variable pointed to, after the call. -/
def setLength (p : ParamPtr) : Res Param := p.call fun p => .ok p.setLength

/-- `(*Param).MarshalTo`, `params.go:200-205`. (With a nil receiver `b[0:2]` may be what panics; it is a panic in any case.) -/
def marshalTo (b : Slice) (p : ParamPtr) : Res Bytes := p.call fun p => p.marshalTo b

/-- `(*Param).MarshalBinary`, `params.go:191-197`. -/
def marshalBinary (p : ParamPtr) : Res Bytes := do
  let b := Slice.make (← p.marshalLen)
  let m ← p.marshalTo b
  return { b with mem := m }.bytes

end ParamPtr

/-- The accessor of a parameter by its name; where there is one for the first and one for all values, the latter
(`RoutingContexts`, `messages/params/routing-context.go:24-30`, and `AffectedPointCodes`, `affected-pointcode.go:25-30`). Only whether it returns is kept. -/
def Param.read (n : Spec.PName) (p : Param) : Res Unit :=
  match n with
  | .infoString => p.infoString >>= fun _ => .ok ()
  | .routingContext => p.routingContexts >>= fun _ => .ok ()
  | .diagnosticInformation => p.diagnosticInformation >>= fun _ => .ok ()
  | .heartbeatData => p.heartbeatData >>= fun _ => .ok ()
  | .trafficModeType => p.trafficModeType >>= fun _ => .ok ()
  | .errorCode => p.errorCode >>= fun _ => .ok ()
  | .status => p.status >>= fun _ => .ok ()
  | .aspIdentifier => p.aspIdentifier >>= fun _ => .ok ()
  | .affectedPointCode => p.affectedPointCodes >>= fun _ => .ok ()
  | .correlationID => p.correlationID >>= fun _ => .ok ()
  | .networkAppearance => p.networkAppearance >>= fun _ => .ok ()
  | .userCause => p.userCause >>= fun _ => .ok ()
  | .congestionIndications => p.congestionLevel >>= fun _ => .ok ()
  | .concernedDestination => p.concernedDestination >>= fun _ => .ok ()
  | .routingKey => p.routingKey >>= fun _ => .ok ()
  | .registrationResult => p.registrationResult >>= fun _ => .ok ()
  | .deregistrationResult => p.deregistrationResult >>= fun _ => .ok ()
  | .localRoutingKeyIdentifier => p.localRoutingKeyIdentifier >>= fun _ => .ok ()
  | .destinationPointCode => p.destinationPointCode >>= fun _ => .ok ()
  | .serviceIndicators => p.serviceIndicators >>= fun _ => .ok ()
  | .originatingPointCodeList => p.originatingPointCodeList >>= fun _ => .ok ()
  | .protocolData => p.protocolData >>= fun _ => .ok ()
  | .registrationStatus => p.registrationStatus >>= fun _ => .ok ()
  | .deregistrationStatus => p.deregistrationStatus >>= fun _ => .ok ()

/-- `params.MarshalMultiParams`, `messages/params/params.go:265-275`, as it is: with pointers. -/
def marshalMultiPtrs : List ParamPtr → Res Bytes
  | [] => .ok []
  | p :: ps => do
    let c ← p.marshalBinary
    let r ← marshalMultiPtrs ps
    return c ++ r

/-- `messages.Generic`, `messages/generic.go:18-21`, with pointers as its members. -/
structure PtrGeneric where
  header : Header
  params : List ParamPtr
  deriving DecidableEq, Repr

namespace PtrGeneric

/-- The loop of `(*Generic).MarshalLen`, `generic.go:95-97`. -/
def addLens (l : Nat) : List ParamPtr → Res Nat
  | [] => .ok l
  | pr :: prs => do
    let n ← pr.marshalLen
    addLens (l + n) prs

/-- `(*Generic).MarshalLen`, `generic.go:93-99`. -/
def marshalLen (g : PtrGeneric) : Res Nat := addLens 8 g.params

/-- The loop of `(*Generic).SetLength`, `generic.go:103-105`: the parameters pointed to, after the call, and whether it panicked. Those before a nil
have been changed. -/
def setLengths : List ParamPtr → List ParamPtr × Res Unit
  | [] => ([], .ok ())
  | pr :: prs =>
    match pr.setLength with
    | .ok p => let r := setLengths prs; (some p :: r.1, r.2)
    | .err e => (pr :: prs, .err e)
    | .panic => (pr :: prs, .panic)
    | .diverge => (pr :: prs, .diverge)

/-- `(*Generic).SetLength`, `generic.go:102-108`: the message after the call. -/
def setLength (g : PtrGeneric) : Res PtrGeneric := do
  let r := setLengths g.params
  r.2
  let g := { g with params := r.1 }
  let l ← g.marshalLen
  return { g with header := { g.header with length := UInt32.ofNat l } }

/-- `messages.New`, `generic.go:24-37`. -/
def new (ver mcls mtype : UInt8) (params : List ParamPtr) : Res PtrGeneric :=
  setLength {
    header := { version := ver, reserved := 0, cls := mcls, typ := mtype, length := 0, payload := [] }
    params := params }

/-- The loop of `(*Generic).MarshalTo`, `generic.go:57-62`. -/
def putAll (payload : Slice) (offset : Nat) : List ParamPtr → Res Slice
  | [] => .ok payload
  | pr :: prs => do
    let s ← payload.from' offset
    let mem ← pr.marshalTo s
    let n ← pr.marshalLen
    putAll { payload with mem := mem } (offset + n) prs

/-- `(*Generic).MarshalTo`, `generic.go:49-65`. -/
def marshalTo (g : PtrGeneric) (b : Slice) : Res (PtrGeneric × Bytes) := do
  let l ← g.marshalLen
  if b.len < l then .err .msgTooShortToMarshal else
  let payload ← putAll (Slice.make (l - 8)) 0 g.params
  let g := { g with header := { g.header with payload := payload.bytes } }
  let mem ← g.header.marshalTo b
  return (g, mem)

/-- `(*Generic).MarshalBinary`, `generic.go:40-46`. -/
def marshalBinary (g : PtrGeneric) : Res (PtrGeneric × Bytes) := do
  let b := Slice.make (← g.marshalLen)
  let (g, mem) ← g.marshalTo b
  return (g, { b with mem := mem }.bytes)

/-- `(*Generic).String`, `generic.go:111-121`; `(*Param).String` checks for nil (`messages/params/params.go:254-256`). -/
def goString (g : PtrGeneric) : String :=
  sprintf ["{Header: ", g.header.goString, ", Params: ", fmtStrings (g.params.map paramGoString), "}"]

/-- A `Generic` none of whose members is nil. -/
def of (g : Msg.Generic) : PtrGeneric := ⟨g.header, g.params.map some⟩

end PtrGeneric

end M3
