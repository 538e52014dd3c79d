import Verif.Lemmas.Conn.Fuel
import Verif.Lemmas.Conn.Sched

/- A connection does nothing without a cause, and only so much for each: C87. -/

set_option autoImplicit false

namespace M3.Conn

open Spec

theorem ops_done (l : List Rec) : Fuel.ops.done l = l.length := by
  induction l with
  | nil => rfl
  | cons x l ih => rw [Fuel.Tariff.done, tot_cons, List.length_cons, ← ih]; exact Nat.add_comm _ _

theorem writes_done (E : Env) (l : List Rec) : (Fuel.writes E).done l = (sends l).length := by
  induction l with
  | nil => rfl
  | cons x l ih =>
    rw [Fuel.Tariff.done, tot_cons, show tot _ l = _ from ih]
    obtain ⟨i, g, o, r⟩ := x
    cases o <;> simp [Fuel.writes, sends, sent?]
    omega

theorem tot_one (p : Gor → Bool) (n : Nat) (l : List Gor) : tot (fun _ => n) (l.filter p) = n * l.countP p := by
  rw [List.countP_eq_length_filter]
  induction l.filter p with
  | nil => rfl
  | cons a l ih => rw [tot_cons, ih, List.length_cons, Nat.mul_add]; omega

/-- C87: whatever happens, the goroutines of a connection perform at most 39 operations of their own accord, 9 for each call of the
user, 24 for each datagram received and 6 for each heartbeat interval that has elapsed. In particular a connection that is left
alone comes to rest. -/
theorem c87_work {E : Env} {w : World} (h : Reachable E w) :
    w.trace.length ≤ 39 + 9 * userCalls w + 24 * (receives w.trace).length + 6 * beats w.trace := by
  have hb := Fuel.bound (Fuel.ops_suffices E) h
  have hi : Fuel.ops.income w = 9 * userCalls w + 24 * (receives w.trace).length + 6 * beats w.trace := by
    have hc : tot Fuel.ops.budget ((w.threads.map Thread.gor).filter ofUser) = 9 * userCalls w := by
      rw [userCalls, ← tot_one]
      generalize w.threads.map Thread.gor = l
      induction l with
      | nil => rfl
      | cons g l ih =>
        cases g <;> simp only [List.filter_cons, ofUser, Bool.false_eq_true, if_false, if_true, ih, tot_cons] <;> rfl
    rw [Fuel.Tariff.income, hc]
    rfl
  have hs : Fuel.ops.start = 39 := rfl
  rw [ops_done, hi, hs] at hb
  omega

/-- C87: a server hands to SCTP at most one datagram for each datagram received, each call of a method that transmits something and
each heartbeat interval that has elapsed, and one more if heartbeats are enabled. A client hands over at most one more for itself
and one more for each datagram received. -/
theorem c87_sends {E : Env} {w : World} (h : Reachable E w) :
    (sends w.trace).length ≤ postings w + (receives w.trace).length + beats w.trace + (if E.hb.enabled then 1 else 0) +
      (if E.mode = .client then 1 + (receives w.trace).length else 0) := by
  have hb := Fuel.bound (Fuel.writes_suffices E) h
  have hc : tot (Fuel.writes E).budget ((w.threads.map Thread.gor).filter ofUser) = postings w := by
    rw [postings]
    generalize w.threads.map Thread.gor = l
    induction l with
    | nil => rfl
    | cons g l ih =>
      cases g with
      | api c =>
        rw [List.filter_cons_of_pos rfl, tot_cons, ih, List.countP_cons]
        cases c <;> simp [Fuel.writes, posts] <;> omega
      | _ => rw [List.filter_cons_of_neg (by simp [ofUser]), ih, List.countP_cons_of_neg (by simp [posts])]
  rw [writes_done, Fuel.Tariff.income, hc] at hb
  obtain ⟨mode, cfg, ⟨en, iv, ti, da⟩, ms⟩ := E
  cases mode <;> cases en <;> simp [Fuel.writes, Fuel.Tariff.start] at hb ⊢ <;> omega

/-- C87: the bound for clients is reached: one DAUD to a client that has just said ASP Up makes it send an Error and ASP Up again. -/
theorem c87_sends_tight {E : Env} (hm : E.mode = .client) : ∃ w, Reachable E w ∧ postings w = 0 ∧ beats w.trace = 0 ∧
    (receives w.trace).length = 1 ∧ (sends w.trace).length = 3 := by
  obtain ⟨mode, cfg, hb, ms⟩ := E
  cases hm
  have ⟨w, hr, hw⟩ := reach_of (E := ⟨.client, cfg, hb, ms⟩)
    (cs := boot .client ++ [.deliver (message 1 2 3 [])] ++ go 2 2 ++ [.loop 2] ++ go 4 1 ++ [.sync 4 2] ++ go 2 2 ++ [.loop 2] ++
      go 4 1 ++ [.sync 4 2] ++ go 2 5)
    (f := fun w => (postings w, beats w.trace, (receives w.trace).length, (sends w.trace).length)) (v := (0, 0, 1, 3))
    (by kernel_rfl)
  exact ⟨w, hr, by simp_all⟩

/-- C87: apart from calls of the user a connection starts at most four goroutines of its own accord, and two for each datagram
received. -/
theorem c87_goroutines {E : Env} {w : World} (h : Reachable E w) :
    w.threads.length ≤ 4 + userCalls w + 2 * (receives w.trace).length := by
  have ht := Fuel.threads_bound h
  have hb := Fuel.bound (Fuel.gors_suffices E) h
  have hi : Fuel.gors.income w = 2 * (receives w.trace).length := by
    have hc : tot Fuel.gors.budget ((w.threads.map Thread.gor).filter ofUser) = 0 := by
      generalize w.threads.map Thread.gor = l
      induction l with
      | nil => rfl
      | cons g l ih =>
        cases g <;> simp only [List.filter_cons, ofUser, Bool.false_eq_true, if_false, if_true, ih, tot_cons] <;> rfl
    rw [Fuel.Tariff.income, hc, Nat.zero_add]
    exact (Nat.add_eq_left).mpr (Nat.zero_mul _)
  have hs : Fuel.gors.start = 1 := rfl
  rw [hi, hs] at hb
  omega

/-- Example for C87: a server that was sent ASP Up did what it does on its own and for one datagram. -/
example : ∃ w, Reachable ⟨.server, E₀.cfg, E₀.hb, 1⟩ w ∧ w.trace.length = 16 ∧ w.threads.length = 5 ∧ userCalls w = 0 ∧ beats w.trace = 0 ∧
    (receives w.trace).length = 1 ∧ (sends w.trace).length = 1 :=
  have ⟨w, hr, hw⟩ := reach_of (E := ⟨.server, E₀.cfg, E₀.hb, 1⟩)
    (cs := boot .server ++ [.deliver (message 1 3 1 [])] ++ go 2 2 ++ [.loop 2] ++ go 4 5 ++ [.sync 4 2])
    (f := fun w => (w.trace.length, w.threads.length, userCalls w, beats w.trace, (receives w.trace).length, (sends w.trace).length))
    (v := (16, 5, 0, 0, 1, 1)) (by decide +kernel)
  ⟨w, hr, by simp_all⟩

end M3.Conn
