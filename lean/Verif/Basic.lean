/-
Vocabulary of the model: results with errors and panics as values, Go byte slices,
and the part of Go's `encoding/binary` big-endian API that the project uses.
-/

namespace M3

/-- Go `[]byte` contents. -/
abbrev Bytes := List UInt8

/-- Error values the `messages` and `messages/params` packages return.
`messages/params/params.go:63-68`, `messages/message.go:189-193`; `wrapped` is
`fmt.Errorf("failed to decode XXX: %w", err)` as in `messages/duna.go:120`. -/
inductive Err where
  | paramInvalidType        -- params.ErrInvalidType
  | paramInvalidLength      -- params.ErrInvalidLength
  | paramTooShortToMarshal  -- params.ErrTooShortToMarshalBinary
  | paramTooShortToParse    -- params.ErrTooShortToParse
  | msgTooShortToMarshal    -- messages.ErrTooShortToMarshalBinary
  | msgTooShortToParse      -- messages.ErrTooShortToParse
  | msgInvalidParameter     -- messages.ErrInvalidParameter
  | wrapped (what : String) (e : Err)
  deriving DecidableEq, Repr

/-- `errors.Is`: strips the wrapping added by `fmt.Errorf("...%w")`. -/
def Err.root : Err → Err
  | .wrapped _ e => e.root
  | e => e

/-- Outcome of a Go call: normal return, a returned error, a run-time panic, or a loop that did
not finish within its iteration bound. -/
inductive Res (α : Type) where
  | ok (a : α)
  | err (e : Err)
  | panic
  | diverge
  deriving DecidableEq, Repr

namespace Res

@[inline] def bind {α β : Type} (r : Res α) (f : α → Res β) : Res β :=
  match r with
  | ok a => f a
  | err e => err e
  | panic => panic
  | diverge => diverge

instance : Monad Res where
  pure := ok
  bind := bind

@[simp] theorem bind_ok {α β : Type} (a : α) (f : α → Res β) : (Res.ok a >>= f) = f a := rfl
@[simp] theorem bind_err {α β : Type} (e : Err) (f : α → Res β) :
    ((Res.err e : Res α) >>= f) = Res.err e := rfl
@[simp] theorem bind_panic {α β : Type} (f : α → Res β) :
    ((Res.panic : Res α) >>= f) = Res.panic := rfl
@[simp] theorem bind_diverge {α β : Type} (f : α → Res β) :
    ((Res.diverge : Res α) >>= f) = Res.diverge := rfl
@[simp] theorem pure_eq {α : Type} (a : α) : (pure a : Res α) = Res.ok a := rfl

/-- `err != nil` wrapping as in `fmt.Errorf("...: %w", err)`. -/
def mapErr {α : Type} (f : Err → Err) : Res α → Res α
  | err e => err (f e)
  | r => r

end Res

/-- A writable Go slice: a window of `len` bytes starting at `off` of the backing array `mem`.
The capacity is `mem.length - off`. -/
structure Slice where
  mem : Bytes
  off : Nat
  len : Nat
  deriving DecidableEq, Repr

namespace Slice

/-- Invariant of every Go slice value. -/
def WF (s : Slice) : Prop := s.off + s.len ≤ s.mem.length

/-- `cap(s)`. -/
def cap (s : Slice) : Nat := s.mem.length - s.off

/-- The visible bytes `s[0:len(s)]`. -/
def bytes (s : Slice) : Bytes := (s.mem.drop s.off).take s.len

/-- `make([]byte, n)`. -/
def make (n : Nat) : Slice := ⟨List.replicate n 0, 0, n⟩

/-- `s[i:j]`; Go panics unless `i <= j <= cap(s)`. -/
def sub (s : Slice) (i j : Nat) : Res Slice :=
  if i ≤ j ∧ j ≤ s.cap then .ok ⟨s.mem, s.off + i, j - i⟩ else .panic

/-- `s[i:]`; Go panics unless `i <= len(s)`. -/
def from' (s : Slice) (i : Nat) : Res Slice :=
  if i ≤ s.len then .ok ⟨s.mem, s.off + i, s.len - i⟩ else .panic

end Slice

/-- Overwrite `bs.length` bytes of a memory at position `off` (callers stay inside the memory). -/
def writeAt (mem : Bytes) (off : Nat) (bs : Bytes) : Bytes :=
  mem.take off ++ bs ++ mem.drop (off + bs.length)

namespace Slice

/-- `s[i] = v`; Go panics unless `i < len(s)`. The result is the new backing array. -/
def set (s : Slice) (i : Nat) (v : UInt8) : Res Bytes :=
  if i < s.len then .ok (writeAt s.mem (s.off + i) [v]) else .panic

/-- `copy(s, bs)`: copies `min(len(s), len(bs))` bytes. The result is the new backing array. -/
def copy (s : Slice) (bs : Bytes) : Bytes :=
  writeAt s.mem s.off (bs.take s.len)

end Slice

/-- Big-endian bytes of a 16-bit word, as stored by `binary.BigEndian.PutUint16`. -/
def u16bytes (v : UInt16) : Bytes := [(v >>> 8).toUInt8, v.toUInt8]

/-- Big-endian bytes of a 32-bit word, as stored by `binary.BigEndian.PutUint32`. -/
def u32bytes (v : UInt32) : Bytes :=
  [(v >>> 24).toUInt8, (v >>> 16).toUInt8, (v >>> 8).toUInt8, v.toUInt8]

/-- `binary.BigEndian.PutUint16(s, v)`; panics unless `len(s) >= 2`. -/
def putUint16 (s : Slice) (v : UInt16) : Res Bytes :=
  if 2 ≤ s.len then .ok (writeAt s.mem s.off (u16bytes v)) else .panic

/-- `binary.BigEndian.PutUint32(s, v)`; panics unless `len(s) >= 4`. -/
def putUint32 (s : Slice) (v : UInt32) : Res Bytes :=
  if 4 ≤ s.len then .ok (writeAt s.mem s.off (u32bytes v)) else .panic

/-- `binary.BigEndian.Uint16(b)`; panics unless `len(b) >= 2`. -/
def getUint16 : Bytes → Res UInt16
  | b0 :: b1 :: _ => .ok (b1.toUInt16 ||| (b0.toUInt16 <<< 8))
  | _ => .panic

/-- `binary.BigEndian.Uint32(b)`; panics unless `len(b) >= 4`. -/
def getUint32 : Bytes → Res UInt32
  | b0 :: b1 :: b2 :: b3 :: _ =>
      .ok (b3.toUInt32 ||| (b2.toUInt32 <<< 8) ||| (b1.toUInt32 <<< 16) ||| (b0.toUInt32 <<< 24))
  | _ => .panic

/-- Read-only `b[i:j]`. The capacity is taken to be the length (the most pessimistic choice: with
a larger capacity Go would panic on fewer inputs). -/
def rsub (b : Bytes) (i j : Nat) : Res Bytes :=
  if i ≤ j ∧ j ≤ b.length then .ok ((b.drop i).take (j - i)) else .panic

/-- Read-only `b[i:]`. -/
def rfrom (b : Bytes) (i : Nat) : Res Bytes :=
  if i ≤ b.length then .ok (b.drop i) else .panic

/-- Read-only `b[i]`. -/
def rindex {α : Type} (b : List α) (i : Nat) : Res α :=
  match b[i]? with
  | some v => .ok v
  | none => .panic

end M3
