import Verif.Spec.Table
import Verif.Spec.Wire
import Verif.Basic

/- Specification of the reasons for which `messages.Parse` refuses a datagram. -/

set_option autoImplicit false

namespace M3.Spec

/-- Complete parameters, one after the other, with all of their padding (of any value). -/
inductive Whole : List UInt8 → Prop
  | nil : Whole []
  | cons (tag : Nat) (value filler rest : List UInt8) : tag < 65536 → value.length ≤ maxValue → filler.length = pad value.length →
      Whole rest → Whole (be16 tag ++ be16 (4 + value.length) ++ value ++ filler ++ rest)

/-- What stops reading parameters: less than the four bytes of tag and length; a length that is smaller than four or larger than what is left. -/
inductive Fault where
  | stub
  | length

def Fault.At : Fault → List UInt8 → Prop
  | .stub, rest => 0 < rest.length ∧ rest.length < 4
  | .length, rest => 4 ≤ rest.length ∧ (field16 rest 2 < 4 ∨ rest.length < field16 rest 2)

/-- After complete parameters comes something that is none. -/
def Broken (f : Fault) (b : List UInt8) : Prop := ∃ pre rest, b = pre ++ rest ∧ Whole pre ∧ f.At rest

/-- Reasons to refuse a datagram. -/
inductive Refusal where
  | short
  | body (f : Fault)
  | unknown (k : Kind)

/-- A datagram is refused because it is shorter than the common header; because its body is not a sequence of parameters; or because
class and type select a message of a kind that does not define one of its parameters. -/
def Refusal.Of : Refusal → List UInt8 → Prop
  | .short, b => b.length < 8
  | .body f, b => 8 ≤ b.length ∧ Broken f (b.drop 8)
  | .unknown k, b => 8 ≤ b.length ∧ k.cls * 16 + k.typ = ((b.getD 2 0).toNat * 16) % 256 ||| (b.getD 3 0).toNat ∧
      ∃ qs, ParamSeq (b.drop 8) qs ∧ ∃ q ∈ qs, ∀ n ∈ k.params, q.1 ≠ n.tag

/-- The variable of package `messages` or `params` with which the error can be recognised (`errors.Is`). -/
def Refusal.sentinel : Refusal → Err
  | .short => .msgTooShortToParse
  | .body .stub => .paramTooShortToParse
  | .body .length => .paramInvalidLength
  | .unknown _ => .msgInvalidParameter

/-- What `Error()` shows. Five messages about the network say which they are. -/
def Refusal.text : Refusal → String
  | .short => "too short to decode as M3UA"
  | .body .stub => "too short to decode as parameter"
  | .body .length => "parameter has invalid length value"
  | .unknown k => (match k with
    | .duna => "failed to decode DUNA: "
    | .dava => "failed to decode DAVA: "
    | .daud => "failed to decode DAUD: "
    | .dupu => "failed to decode DUPU: "
    | .drst => "failed to decode DRST: "
    | _ => "") ++ "got invalid parameter inside a message"

end M3.Spec
