import Verif.Basic

/-
Model of `pc/pc.go`. Go strings are byte sequences. `uint32` is `BitVec 32`; a Go shift by 32 or
more gives 0, as `BitVec` shifts by a `Nat` do. `int` is 64 bits wide.
-/

namespace M3
namespace Pc

/-- `strings.Split(s, "-")`: always at least one part. -/
def split : Bytes → List Bytes
  | [] => [[]]
  | b :: s =>
    if b = 0x2d then [] :: split s
    else match split s with
      | p :: ps => (b :: p) :: ps
      | [] => [[b]]

/-- `strings.Join(parts, "-")`. -/
def join : List Bytes → Bytes
  | [] => []
  | [p] => p
  | p :: ps => p ++ 0x2d :: join ps

/-- The digit loop of `strconv.Atoi`; `none` on a byte that is no decimal digit. -/
def digits (n : Nat) : Bytes → Option Nat
  | [] => some n
  | b :: s => if 0x30 ≤ b ∧ b ≤ 0x39 then digits (n * 10 + (b - 0x30).toNat) s else none

/-- The optional sign `strconv.Atoi` strips, and the rest. -/
def signOf (s : Bytes) : Bool × Bytes :=
  if s.head? = some 0x2d then (true, s.tail)
  else if s.head? = some 0x2b then (false, s.tail)
  else (false, s)

/-- What `strconv.Atoi` makes of the bytes after the sign. -/
def unsigned (neg : Bool) (d : Bytes) : Option Int :=
  if d = [] then none
  else match digits 0 d with
    | none => none
    | some n =>
      if neg then (if n ≤ 2 ^ 63 then some (-(n : Int)) else none)
      else (if n < 2 ^ 63 then some (n : Int) else none)

/-- `strconv.Atoi` for 64-bit `int`: optional sign, at least one digit, only digits, value in range.
(The standard library's fast path for short strings and its slow path agree on this.) `none` is a
non-nil error. -/
def atoi (s : Bytes) : Option Int := unsigned (signOf s).1 (signOf s).2

/-- `strconv.Itoa` of a non-negative number. -/
def itoa (n : Nat) : Bytes :=
  if n < 10 then [0x30 + UInt8.ofNat n] else itoa (n / 10) ++ [0x30 + UInt8.ofNat (n % 10)]

/-- `Variant` is a string, `pc/pc.go:16`. -/
abbrev Variant := Bytes

/-! The constants `pc/pc.go:20-30`. -/
def variantNone : Variant := []
def variant383 : Variant := [0x33, 0x2d, 0x38, 0x2d, 0x33]
def variant437 : Variant := [0x34, 0x2d, 0x33, 0x2d, 0x37]
def variant4343 : Variant := [0x34, 0x2d, 0x33, 0x2d, 0x34, 0x2d, 0x33]
def variant446 : Variant := [0x34, 0x2d, 0x34, 0x2d, 0x36]
def variant545 : Variant := [0x35, 0x2d, 0x34, 0x2d, 0x35]
def variant662 : Variant := [0x36, 0x2d, 0x36, 0x2d, 0x32]
def variant68 : Variant := [0x36, 0x2d, 0x38]
def variant745 : Variant := [0x37, 0x2d, 0x34, 0x2d, 0x35]
def variant77 : Variant := [0x37, 0x2d, 0x37]
def variant888 : Variant := [0x38, 0x2d, 0x38, 0x2d, 0x38]

/-- `Variant.BitLength`, `pc/pc.go:34-45`. -/
def bitLength (v : Variant) : Nat :=
  if v = variant383 ∨ v = variant437 ∨ v = variant4343 ∨ v = variant545 ∨ v = variant662 ∨
      v = variant68 ∨ v = variant77 then 14
  else if v = variant745 then 16
  else if v = variant888 then 24
  else 0

/-- The loop of `Variant.slice`, `pc/pc.go:54-60`; `none` is the early `return nil`. -/
def sliceLoop : List Bytes → Option (List (BitVec 32))
  | [] => some []
  | d :: ds =>
    match atoi d with
    | none => none
    | some x => (sliceLoop ds).map (BitVec.ofInt 32 x :: ·)

/-- `Variant.slice`, `pc/pc.go:47-62`. A nil slice has no elements. -/
def slice (v : Variant) : List (BitVec 32) :=
  if v = variantNone then [] else (sliceLoop (split v)).getD []

/-- `PointCode`, `pc/pc.go:70-74`. -/
structure PointCode where
  raw : BitVec 32
  formatted : Bytes
  form : Variant
  deriving DecidableEq, Repr

/-- The loop of `convRawToStr`, `pc/pc.go:140-144`. -/
def rawLoop (n : BitVec 32) : BitVec 32 → List (BitVec 32) → List Bytes
  | _, [] => []
  | r, v :: vs =>
    let x := n &&& (((1 : BitVec 32) <<< r.toNat) - ((1 : BitVec 32) <<< (r - v).toNat))
    let r := r - v
    itoa (x >>> r.toNat).toNat :: rawLoop n r vs

/-- `convRawToStr`, `pc/pc.go:130-147`; `none` is a non-nil error. -/
def convRawToStr (n : BitVec 32) (v : Variant) : Option Bytes :=
  if v = variantNone then none
  else
    let s := slice v
    let r := BitVec.ofNat 32 (bitLength v)
    let n := n &&& (((1 : BitVec 32) <<< r.toNat) - 1)
    some (join (rawLoop n r s))

/-- The loop of `convStrToRaw`, `pc/pc.go:165-172`. The lists have equal length. -/
def strLoop : BitVec 32 → BitVec 32 → List Bytes → List (BitVec 32) → Option (BitVec 32)
  | n, r, d :: ds, w :: ws =>
    match atoi d with
    | none => none
    | some x =>
      let r := r - w
      strLoop (n ||| (BitVec.ofInt 32 x <<< r.toNat)) r ds ws
  | n, _, _, _ => some n

/-- `convStrToRaw`, `pc/pc.go:149-175`; `none` is a non-nil error. `len(ds) == 0` never holds. -/
def convStrToRaw (f : Bytes) (v : Variant) : Option (BitVec 32) :=
  if v = variantNone then none
  else
    let ds := split f
    if ds.length = 0 then none
    else
      let s := slice v
      if ds.length ≠ s.length then none
      else strLoop 0 (BitVec.ofNat 32 (bitLength v)) ds s

namespace PointCode

/-- `(*PointCode).ConvertTo`, `pc/pc.go:121-128`: the receiver afterwards, and the result
(`none`: an error). -/
def convertTo (p : PointCode) (v : Variant) : PointCode × Option Bytes :=
  match convRawToStr p.raw v with
  | none => (p, none)
  | some str => ({ p with formatted := str }, some str)

/-- `(*PointCode).Uint32`, `pc/pc.go:108-110`. -/
def uint32 (p : PointCode) : BitVec 32 := p.raw

/-- `(*PointCode).Variant`, `pc/pc.go:113-115`. -/
def variant (p : PointCode) : Bytes := p.form

/-- `(*PointCode).String`, `pc/pc.go:178-184`. -/
def string (p : PointCode) : Bytes := if p.form = variantNone then [] else p.formatted

end PointCode

/-- `NewPointCode`, `pc/pc.go:77-90`; `none` is nil. -/
def newPointCode (raw : BitVec 32) (v : Variant) : Option PointCode :=
  let p : PointCode := ⟨raw, [], v⟩
  let p := { p with raw := p.raw &&& (((1 : BitVec 32) <<< bitLength v) - 1) }
  match p.convertTo v with
  | (_, none) => none
  | (p, some str) => some { p with formatted := str }

/-- `NewPointCodeFrom`, `pc/pc.go:93-105`; `none` is nil. -/
def newPointCodeFrom (pc : Bytes) (v : Variant) : Option PointCode :=
  if v = variantNone then none
  else match convStrToRaw pc v with
    | none => none
    | some raw => some ⟨raw, pc, v⟩

end Pc
end M3
