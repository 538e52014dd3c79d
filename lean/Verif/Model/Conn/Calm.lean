import Verif.Model.Conn.Link

/- Two endpoints left to themselves. -/

set_option autoImplicit false

namespace M3.Conn

/-- The steps of `Link.Step` that are possible without a disturbance and without new calls: goroutines go on, with the outcomes of `Work`;
any of the datagrams under way arrives. -/
inductive Link.Work (Ea Eb : Env) : Link → Link → Prop where
  | a {p a'} : Conn.Work Ea p.a a' → Link.Work Ea Eb p { p with a := a', toB := p.toB ++ a'.out.drop p.a.out.length }
  | b {p b'} : Conn.Work Eb p.b b' → Link.Work Ea Eb p { p with b := b', toA := p.toA ++ b'.out.drop p.b.out.length }
  | toB {p d l l'} : p.b.sh.crashed = false → p.toB = l ++ d :: l' →
      Link.Work Ea Eb p { p with b := p.b.deliver d, toB := l ++ l' }
  | toA {p d l l'} : p.a.sh.crashed = false → p.toA = l ++ d :: l' →
      Link.Work Ea Eb p { p with a := p.a.deliver d, toA := l ++ l' }

end M3.Conn
