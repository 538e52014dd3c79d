import Verif.Lemmas.Conn.ShakeCheck
open M3.Conn M3.Conn.Shake
def iter' : Nat → List (Nat × P) → List (Nat × P)
  | 0, l => l
  | n+1, l => match next [] l with | some r => iter' n r | none => []
def sSt : St → String | .down => ".down" | .inactive => ".inactive" | .active => ".active" | .cdi => ".cdi" | .ri => ".ri"
def sCond : Cond → String | .idle => ".idle" | .waiting => ".waiting" | .woken => ".woken"
def sSig : Sig → String | .up => ".up" | .upAck => ".upAck" | .act => ".act" | .actAck => ".actAck"
def sL {α} (f : α → String) (l : List α) : String := "[" ++ ", ".intercalate (l.map f) ++ "]"
def sA (a : A) : String := s!"⟨{sSt a.st}, {a.locked}, {a.handed}, {sCond a.cond}, {sL sSig a.inbox}, {a.pcs}, {a.sent}, {a.opened}⟩"
def sP (p : Nat × P) : String := s!"({p.1}, ⟨{sA p.2.c}, {sA p.2.s}, {sL sSig p.2.toS}, {sL sSig p.2.toC}⟩)"
def main : IO Unit := do
  for n in [46, 60, 66, 71] do
    IO.println s!"@{n}"
    for p in iter' n [(0, P.init)] do IO.println (sP p)
#eval main
