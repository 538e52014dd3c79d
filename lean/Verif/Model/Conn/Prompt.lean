import Verif.Model.Conn.Timed

/- Time without delay. `Verif.Model.Conn.Timed` says nothing about how late a timer fires or how long a goroutine that could go
on is kept waiting, so nothing follows from it about how long something takes at most. Here one goroutine is never kept waiting:
time passes only as long as it cannot go on. (An operation of the operating system that the model lets fail at any time,
`SCTPWrite` and `rand.Read`, then takes no time either.) -/

set_option autoImplicit false

namespace M3.Conn

/-- Goroutine `i` can go on now: it can complete an operation, or it is about to enter the next run of its loop. -/
def Timed.Ready (E : Env) (t : Timed) (i : Nat) : Prop :=
  t.w.sh.crashed = false ∧ (∃ g h g', t.w.threads[i]? = some ⟨g, h, .ret (some g')⟩) ∨
  ∃ w' l, Conn.Step E t.w w' ∧ (∃ x ∈ l, x.tid = i) ∧ w'.trace = t.w.trace ++ l ∧
    ∀ x ∈ l, ∀ d, x.ev.after? E = some d → lastOf t.log x.tid + d ≤ t.now

/-- The executions with a clock in which goroutine `i` is never kept waiting: whenever it can go on, the time stands still
until it does (or until it cannot any more). Nothing is assumed about the other goroutines. -/
inductive Timed.Prompt (E : Env) (i : Nat) : Timed → Prop where
  | init : Timed.Prompt E i (Timed.init E)
  | wait {t : Timed} (d : Nat) : Timed.Prompt E i t → (∀ d', d' < d → ¬ Timed.Ready E { t with now := t.now + d' } i) →
      Timed.Prompt E i { t with now := t.now + d }
  | act {t t' : Timed} : Timed.Prompt E i t → Timed.Step E t t' → t'.now = t.now → Timed.Prompt E i t'

end M3.Conn
