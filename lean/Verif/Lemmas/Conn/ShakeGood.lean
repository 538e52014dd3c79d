import Verif.Lemmas.Conn.ShakePart1
import Verif.Lemmas.Conn.ShakePart2
import Verif.Lemmas.Conn.ShakePart3
import Verif.Lemmas.Conn.ShakePart4
import Verif.Lemmas.Conn.ShakePart5

/- Exploration of the abstract handshake: conclusion. -/

namespace M3.Conn.Shake

theorem checked : check 79 [(0, P.init)] = true := by
  have e : 79 = 46 + (14 + (6 + (5 + 8))) := rfl
  rw [e]
  exact check_later part1 (check_later part2 (check_later part3 (check_later part4 part5)))

/-- Every execution from the start has at most 78 steps, and all states are good. -/
theorem run_good {n : Nat} {p : P} (h : Run n .init p) : n ≤ 78 ∧ p.good (psuccs p) = true := by
  have := check_run checked List.mem_cons_self h
  exact ⟨by omega, this.2⟩

end M3.Conn.Shake
