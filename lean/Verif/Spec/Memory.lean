import Verif.Spec.Table
import Verif.Spec.Wire

/- Specification: where the values of parameters lie in a datagram. -/

set_option autoImplicit false

namespace M3.Spec

/-- Start and length of the value of each parameter of a sequence that begins at position `o`: four octets of tag and length, the value,
padding. -/
def places : Nat → List (Nat × List UInt8) → List (Nat × Nat)
  | _, [] => []
  | o, (_, v) :: qs => (o + 4, v.length) :: places (o + 4 + v.length + pad v.length) qs

/-- Start and length of the value of the last parameter with the tag of `n` in a datagram whose header is followed by the sequence. -/
def lastPlace (n : PName) (qs : List (Nat × List UInt8)) : Option (Nat × Nat) :=
  (((qs.zip (places 8 qs)).filter fun x => x.1.1 = n.tag).getLast?).map (·.2)

/-- What lies at such a place. -/
def part (mem : List UInt8) (x : Nat × Nat) : List UInt8 := (mem.drop x.1).take x.2

end M3.Spec
