import Verif.Model.Header

/- Model of `messages/generic.go`. -/

namespace M3.Msg

/-- `Generic`, `messages/generic.go:18-21`. The embedded `*Header` and the members of `Params` are
taken to be non-nil (with a nil member, `MarshalLen` and `MarshalTo` dereference nil). -/
structure Generic where
  header : Header
  params : List Param
  deriving DecidableEq, Repr

namespace Generic

/-- `&Generic{}`, `generic.go:69`. -/
def zero : Generic := ⟨Header.zero, []⟩

/-- `(*Generic).MarshalLen`, `generic.go:93-99`. -/
def marshalLen (g : Generic) : Nat := g.params.foldl (fun l pr => l + pr.marshalLen) 8

/-- `(*Generic).SetLength`, `generic.go:102-108`. -/
def setLength (g : Generic) : Generic :=
  let g := { g with params := g.params.map Param.setLength }
  { g with header := { g.header with length := UInt32.ofNat g.marshalLen } }

/-- `New`, `generic.go:24-37`. -/
def new (ver mcls mtype : UInt8) (params : List Param) : Generic :=
  setLength {
    header := { version := ver, reserved := 0, cls := mcls, typ := mtype, length := 0, payload := [] }
    params := params }

/-- The loop of `MarshalTo`, `generic.go:57-62`. -/
def putAll (payload : Slice) (offset : Nat) : List Param → Res Slice
  | [] => .ok payload
  | pr :: prs => do
    let s ← payload.from' offset
    let mem ← pr.marshalTo s
    putAll { payload with mem := mem } (offset + pr.marshalLen) prs

/-- `(*Generic).MarshalTo`, `generic.go:49-65`. -/
def marshalTo (g : Generic) (b : Slice) : Res (Generic × Bytes) := do
  if b.len < g.marshalLen then .err .msgTooShortToMarshal else
  let payload ← putAll (Slice.make (g.marshalLen - 8)) 0 g.params
  let g := { g with header := { g.header with payload := payload.bytes } }
  let mem ← g.header.marshalTo b
  return (g, mem)

/-- `(*Generic).MarshalBinary`, `generic.go:40-46`. -/
def marshalBinary (g : Generic) : Res (Generic × Bytes) := do
  let b := Slice.make g.marshalLen
  let (g, mem) ← g.marshalTo b
  return (g, { b with mem := mem }.bytes)

/-- `(*Generic).UnmarshalBinary`, `generic.go:77-90`. -/
def unmarshalBinary (g : Generic) (b : Bytes) : Res Generic := do
  let h ← Header.parse b
  let g := { g with header := h }
  let prs ← parseMultiParams g.header.payload
  return { g with params := g.params ++ prs }

/-- `ParseGeneric`, `generic.go:68-74`. -/
def parse (b : Bytes) : Res Generic := zero.unmarshalBinary b

/-- `(*Generic).Version`, `generic.go:124-126`. -/
def version (g : Generic) : UInt8 := g.header.version

/-- `(*Generic).MessageType`, `generic.go:129-131`. -/
def messageType (g : Generic) : UInt8 := g.header.typ

/-- `(*Generic).MessageClass`, `generic.go:134-136`. -/
def messageClass (g : Generic) : UInt8 := g.header.cls

end Generic

end M3.Msg
