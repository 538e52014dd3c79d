import Verif.Model.Conn.Pair

/- Two endpoints of this library with all they can do (user calls, cancelled contexts, failures), and a network between them
that changes and duplicates nothing. -/

set_option autoImplicit false

namespace M3.Conn

/-- A step of an endpoint other than the arrival of a datagram. -/
def Local (E : Env) (w w' : World) : Prop := Step E w w' ∧ ∀ d, w' ≠ w.deliver d

/-- Two endpoints and the datagrams under way. -/
structure Link where
  a : World
  b : World
  toB : List Bytes
  toA : List Bytes

/-- The association was just set up. -/
def Link.init (Ea Eb : Env) : Link := ⟨Conn.init Ea, Conn.init Eb, [], []⟩

/-- One step: an endpoint does something, what it hands to SCTP is sent off (even if SCTP reports an error); or any of the
datagrams under way arrives. SCTP keeps the order within a stream only, so no order is assumed; a datagram that never arrives is
lost. -/
inductive Link.Step (Ea Eb : Env) : Link → Link → Prop where
  | a {p a'} : Local Ea p.a a' → Link.Step Ea Eb p { p with a := a', toB := p.toB ++ a'.out.drop p.a.out.length }
  | b {p b'} : Local Eb p.b b' → Link.Step Ea Eb p { p with b := b', toA := p.toA ++ b'.out.drop p.b.out.length }
  | toB {p d l l'} : p.b.sh.crashed = false → p.toB = l ++ d :: l' →
      Link.Step Ea Eb p { p with b := p.b.deliver d, toB := l ++ l' }
  | toA {p d l l'} : p.a.sh.crashed = false → p.toA = l ++ d :: l' →
      Link.Step Ea Eb p { p with a := p.a.deliver d, toA := l ++ l' }

/-- Any number of steps. -/
inductive Link.Steps (Ea Eb : Env) : Link → Link → Prop where
  | refl (p : Link) : Link.Steps Ea Eb p p
  | tail {a b c : Link} : Link.Steps Ea Eb a b → Link.Step Ea Eb b c → Link.Steps Ea Eb a c

/-- Reachable from the start. -/
def Link.Reachable (Ea Eb : Env) (p : Link) : Prop := Link.Steps Ea Eb (.init Ea Eb) p

/-- The same with the ends exchanged. -/
def Link.flip (p : Link) : Link := ⟨p.b, p.a, p.toA, p.toB⟩

theorem Link.Step.flip {Ea Eb : Env} {p q : Link} (h : Link.Step Ea Eb p q) : Link.Step Eb Ea p.flip q.flip := by
  cases h with
  | a h => exact .b (p := Link.flip p) h
  | b h => exact .a (p := Link.flip p) h
  | toB h1 h2 => exact .toA (p := Link.flip p) h1 h2
  | toA h1 h2 => exact .toB (p := Link.flip p) h1 h2

theorem Link.Reachable.flip {Ea Eb : Env} {p : Link} (h : Link.Reachable Ea Eb p) : Link.Reachable Eb Ea p.flip := by
  unfold Link.Reachable at h ⊢
  generalize hi : Link.init Ea Eb = i at h
  induction h with
  | refl => subst hi; exact .refl _
  | tail _ hs ih => exact .tail ih hs.flip

/-- Each end is a connection on its own. -/
theorem Link.Reachable.ends {Ea Eb : Env} {p : Link} (h : Link.Reachable Ea Eb p) :
    Conn.Reachable Ea p.a ∧ Conn.Reachable Eb p.b := by
  unfold Link.Reachable at h
  generalize hi : Link.init Ea Eb = i at h
  induction h with
  | refl => subst hi; exact ⟨.refl _, .refl _⟩
  | tail _ hs ih =>
    cases hs with
    | a h => exact ⟨ih.1.tail h.1, ih.2⟩
    | b h => exact ⟨ih.1, ih.2.tail h.1⟩
    | toB h1 _ => exact ⟨ih.1, ih.2.tail (World.deliver_step _ h1)⟩
    | toA h1 _ => exact ⟨ih.1.tail (World.deliver_step _ h1), ih.2⟩

end M3.Conn
