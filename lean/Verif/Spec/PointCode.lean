/-
Specification of signalling point code formats. Independent of the model.

A variant "w1-w2-...-wk" splits a point code of w1+...+wk bits into k groups, most significant first,
written as decimal numbers separated by dashes.
-/

namespace M3.Spec

/-- The ten variants `pc/pc.go` advertises. -/
inductive PcVariant where
  | v383 | v437 | v4343 | v446 | v545 | v662 | v68 | v745 | v77 | v888
  deriving DecidableEq, Repr

/-- Group widths in bits: the digits of the variant's name. -/
def PcVariant.widths : PcVariant → List Nat
  | .v383 => [3, 8, 3]
  | .v437 => [4, 3, 7]
  | .v4343 => [4, 3, 4, 3]
  | .v446 => [4, 4, 6]
  | .v545 => [5, 4, 5]
  | .v662 => [6, 6, 2]
  | .v68 => [6, 8]
  | .v745 => [7, 4, 5]
  | .v77 => [7, 7]
  | .v888 => [8, 8, 8]

/-- Number of bits of a point code of that variant. -/
def PcVariant.bits (v : PcVariant) : Nat := v.widths.sum

/-- Value of groups `cs` for widths `ws`: each group is weighted by 2 to the number of bits to its
right. -/
def positional : List Nat → List Nat → Nat
  | _ :: ws, c :: cs => c * 2 ^ ws.sum + positional ws cs
  | _, _ => 0

/-- Every group fits its width. -/
def InRange : List Nat → List Nat → Prop
  | [], [] => True
  | w :: ws, c :: cs => c < 2 ^ w ∧ InRange ws cs
  | _, _ => False

/-- The ASCII codes of the digits and separators. -/
def isDigit (b : UInt8) : Prop := 0x30 ≤ b.toNat ∧ b.toNat ≤ 0x39

instance (b : UInt8) : Decidable (isDigit b) := inferInstanceAs (Decidable (_ ∧ _))

/-- Value of a string of decimal digits. -/
def decValue (s : List UInt8) : Nat := s.foldl (fun n b => 10 * n + (b.toNat - 0x30)) 0

/-- `s` is a non-empty string of decimal digits with value `n`. -/
def IsDecimal (n : Nat) (s : List UInt8) : Prop :=
  s ≠ [] ∧ (∀ b ∈ s, isDigit b) ∧ decValue s = n

/-- ... without superfluous leading zeros. -/
def IsCanonicalDecimal (n : Nat) (s : List UInt8) : Prop :=
  IsDecimal n s ∧ (s.length = 1 ∨ s.head? ≠ some 0x30)

/-- `parts` joined with dashes. -/
def dashed (parts : List (List UInt8)) : List UInt8 := List.intercalate [0x2d] parts

/-- `s` is the dash-separated canonical decimal representation of the groups `cs`. -/
def Formats (cs : List Nat) (s : List UInt8) : Prop :=
  ∃ parts, parts.length = cs.length ∧ (∀ x ∈ cs.zip parts, IsCanonicalDecimal x.1 x.2) ∧
    s = dashed parts

/-- What `strconv.Atoi` accepts as a group: an optional plus sign and decimal digits, value at most
2^63-1. (A minus sign cannot occur inside a group.) -/
def IsGroup (n : Nat) (s : List UInt8) : Prop :=
  n < 2 ^ 63 ∧ (IsDecimal n s ∨ ∃ d, s = 0x2b :: d ∧ IsDecimal n d)

/-- What `NewPointCodeFrom` needs to succeed: dash-separated groups as `strconv.Atoi` reads them. -/
def Parsable (cs : List Nat) (s : List UInt8) : Prop :=
  ∃ parts, parts.length = cs.length ∧ (∀ x ∈ cs.zip parts, IsGroup x.1 x.2) ∧ s = dashed parts

/-- The groups of unrestricted size, shifted to their places in a 32-bit word and or-ed. Equal to
`positional` when every group is in range. -/
def orValue : List Nat → List Nat → Nat
  | _ :: ws, c :: cs => (c * 2 ^ ws.sum) % 2 ^ 32 ||| orValue ws cs
  | _, _ => 0

end M3.Spec
