import Verif.Model.Logger

/-! Properties C37 and C65: the package logger. -/

set_option autoImplicit false

namespace M3
namespace Logger

/-- In its critical section. -/
def Thread.holding (t : Thread) : Bool := decide (1 ≤ t.pc ∧ t.pc < (prog t.call).length)

def Thread.isEnable (t : Thread) : Prop := ∃ l, t.call = .enableLogging l

/-- Invariant: the mutex is locked iff exactly one call is in its critical section, and no
`EnableLogging` ever gets past its first operation. -/
structure Inv (s : St) : Prop where
  en : ∀ t ∈ s.threads, t.isEnable → t.pc ≤ 1
  hold : s.threads.countP Thread.holding = if s.locked then 1 else 0

theorem exec_threads {op : Instr} {s s' : St} (h : exec op s = some s') : s'.threads = s.threads := by
  cases op with
  | lock => simp only [exec] at h; split at h <;> cases h; rfl
  | assign l => cases l <;> cases h <;> rfl
  | print x => cases h; split <;> rfl
  | _ => cases h; rfl

theorem exec_locked {op : Instr} {s s' : St} (h : exec op s = some s') :
    s'.locked = match op with | .lock => true | .unlock => false | _ => s.locked := by
  cases op with
  | lock => simp only [exec] at h; split at h <;> cases h; rfl
  | assign l => cases l <;> cases h <;> rfl
  | print x => cases h; dsimp only; split <;> rfl
  | _ => cases h; rfl

theorem step_inv {s s' : St} (hi : Inv s) (h : Step s s') : Inv s' := by
  cases h with
  | call c =>
    refine ⟨?_, ?_⟩
    · intro t ht he
      rcases List.mem_append.mp ht with ht | ht
      · exact hi.en t ht he
      · rw [List.mem_singleton] at ht; subst ht; simp
    · rw [List.countP_append, hi.hold]; simp [Thread.holding]
  | exec s1 i t op hg hop he =>
    have hlt : i < s.threads.length := (List.getElem?_eq_some_iff.mp hg).1
    have hget : s.threads[i] = t := (List.getElem?_eq_some_iff.mp hg).2
    have hmem : t ∈ s.threads := List.mem_of_getElem? hg
    have hpc : t.pc < (prog t.call).length := (List.getElem?_eq_some_iff.mp hop).1
    have hth := exec_threads he
    -- a call past its first operation holds the mutex
    have hlk : 1 ≤ t.pc → s.locked = true := by
      intro h1
      have : 0 < s.threads.countP Thread.holding :=
        List.countP_pos_iff.mpr ⟨t, hmem, by simp [Thread.holding, h1, hpc]⟩
      rw [hi.hold] at this
      cases hl : s.locked with
      | true => rfl
      | false => rw [hl] at this; exact absurd this (by decide)
    have hen : t.isEnable → t.pc = 0 := by
      intro hen
      have h1 := hi.en t hmem hen
      obtain ⟨l, hl⟩ := hen
      rcases Nat.lt_or_ge t.pc 1 with h | h
      · omega
      · exfalso
        have hp : t.pc = 1 := by omega
        rw [hl, hp] at hop
        have : op = .lock := by
          simp only [prog, setLoggerBody, List.cons_append, List.getElem?_cons_succ, List.getElem?_cons_zero,
            Option.some.injEq] at hop
          exact hop.symm
        subst this
        rw [exec, hlk h] at he
        simp at he
    refine ⟨?_, ?_⟩
    · intro u hu hue
      rcases List.mem_or_eq_of_mem_set hu with hu | hu
      · exact hi.en u hu hue
      · subst hu
        have := hen hue
        simp [this]
    · show (s.threads.set i _).countP _ = _
      rw [List.countP_set hlt, hget, hi.hold]
      rcases Nat.lt_or_ge t.pc 1 with h0 | h1
      · have h0 : t.pc = 0 := by omega
        have hop' : op = .lock := by
          rw [h0] at hop
          cases hc : t.call <;> rw [hc] at hop <;> simp [prog, setLoggerBody] at hop <;> exact hop.symm
        subst hop'
        rw [exec] at he
        have hl : s.locked = false := by
          cases hl : s.locked with
          | false => rfl
          | true => rw [hl] at he; simp at he
        rw [hl] at he
        simp at he
        subst he
        have h2 : 1 < (prog t.call).length := by cases t.call <;> simp [prog, setLoggerBody]
        simp [Thread.holding, h0, h2, hl]
      · have hl := hlk h1
        have hne : ¬ t.isEnable := fun h => by have := hen h; omega
        have hlen : (prog t.call).length = 3 := by
          cases hc : t.call with
          | enableLogging l => exact absurd ⟨l, hc⟩ hne
          | _ => simp [prog, setLoggerBody]
        have hpc3 : t.pc = 1 ∨ t.pc = 2 := by omega
        rcases hpc3 with h | h
        · have hl1 : s1.locked = s.locked := by
            rw [h] at hop
            cases hc : t.call <;> rw [hc] at hop <;> simp [prog, setLoggerBody] at hop
            case enableLogging l => exact absurd ⟨l, hc⟩ hne
            all_goals (subst hop; exact exec_locked he)
          simp [Thread.holding, h, hlen, hl1, hl]
        · have hl1 : s1.locked = false := by
            rw [h] at hop
            cases hc : t.call <;> rw [hc] at hop <;> simp [prog, setLoggerBody] at hop
            case enableLogging l => exact absurd ⟨l, hc⟩ hne
            all_goals (subst hop; simp only [exec] at he; cases he; rfl)
          simp [Thread.holding, h, hlen, hl1, hl]

theorem steps_inv {s : St} (h : Steps init s) : Inv s := by
  generalize hi : init = i at h
  induction h with
  | refl =>
    subst hi
    exact ⟨by intro t ht; simp [init] at ht, by simp [init]⟩
  | tail _ hs ih => exact step_inv ih hs

/-- C37: no call of `EnableLogging` ever returns, in any execution. -/
theorem c37_never_returns (s : St) (h : Steps init s) (t : Thread) (ht : t ∈ s.threads)
    (l : Option Nat) (hl : t.call = .enableLogging l) : ¬ t.returned := by
  have := (steps_inv h).en t ht ⟨l, hl⟩
  rw [Thread.returned, hl]
  simp [prog, setLoggerBody]
  omega

/-- An `EnableLogging` call that has taken the mutex (its first operation). -/
def Wedged (s : St) : Prop := ∃ t ∈ s.threads, (∃ l, t.call = .enableLogging l) ∧ t.pc = 1

theorem wedged_step {s s' : St} (hi : Inv s) (hw : Wedged s) (h : Step s s') :
    ∃ c, s' = { s with threads := s.threads ++ [⟨c, 0⟩] } := by
  cases h with
  | call c => exact ⟨c, rfl⟩
  | exec s1 i t op hg hop he =>
    exfalso
    obtain ⟨e, he1, ⟨l, hl⟩, hp⟩ := hw
    have hlt : i < s.threads.length := (List.getElem?_eq_some_iff.mp hg).1
    have hget : s.threads[i] = t := (List.getElem?_eq_some_iff.mp hg).2
    have hpc : t.pc < (prog t.call).length := (List.getElem?_eq_some_iff.mp hop).1
    have heh : e.holding = true := by simp [Thread.holding, hl, hp, prog, setLoggerBody]
    have hlk : s.locked = true := by
      have : 0 < s.threads.countP Thread.holding := List.countP_pos_iff.mpr ⟨e, he1, heh⟩
      rw [hi.hold] at this
      cases hl : s.locked with
      | true => rfl
      | false => rw [hl] at this; exact absurd this (by decide)
    by_cases h0 : t.pc = 0
    · have hop' : op = .lock := by
        rw [h0] at hop
        cases hc : t.call <;> rw [hc] at hop <;> simp [prog, setLoggerBody] at hop <;> exact hop.symm
      subst hop'
      rw [exec, hlk] at he
      simp at he
    · -- then `t` is the one holder, hence the enabler
      have hth : t.holding = true := by simp [Thread.holding, hpc]; omega
      have hte : t = e := by
        have h1 := hi.hold
        rw [hlk] at h1
        have h2 : (s.threads.filter Thread.holding).length = 1 := by
          rw [← List.countP_eq_length_filter]; simpa using h1
        obtain ⟨x, hx⟩ := List.length_eq_one_iff.mp h2
        have a1 : t ∈ s.threads.filter Thread.holding :=
          List.mem_filter.mpr ⟨List.mem_of_getElem? hg, hth⟩
        have a2 : e ∈ s.threads.filter Thread.holding := List.mem_filter.mpr ⟨he1, heh⟩
        rw [hx, List.mem_singleton] at a1 a2
        rw [a1, a2]
      subst hte
      rw [hl, hp] at hop
      have : op = .lock := by
        simp only [prog, setLoggerBody, List.cons_append, List.getElem?_cons_succ, List.getElem?_cons_zero,
          Option.some.injEq] at hop
        exact hop.symm
      subst this
      rw [exec, hlk] at he
      simp at he

/-- C37: from the moment an `EnableLogging` holds the mutex, no call in progress makes another step,
no later call makes any, and nothing is logged any more. -/
theorem c37_wedged (s s' : St) (h : Steps init s) (hw : Wedged s) (h' : Steps s s') :
    ∃ new, s'.threads = s.threads ++ new ∧ (∀ t ∈ new, ¬ t.returned ∧ t.pc = 0) ∧
      s'.lines = s.lines ∧ Wedged s' := by
  have hi := steps_inv h
  have : Inv s' ∧ ∃ new, s'.threads = s.threads ++ new ∧ (∀ t ∈ new, ¬ t.returned ∧ t.pc = 0) ∧
      s'.lines = s.lines ∧ Wedged s' := by
    induction h' with
    | refl => exact ⟨hi, [], by simp, by simp, rfl, hw⟩
    | tail _ hst ih =>
      obtain ⟨ii, new, e1, e2, e3, e4⟩ := ih
      refine ⟨step_inv ii hst, ?_⟩
      obtain ⟨c, rfl⟩ := wedged_step ii e4 hst
      refine ⟨new ++ [⟨c, 0⟩], by simp [e1], ?_, e3, ?_⟩
      · intro t ht
        rcases List.mem_append.mp ht with ht | ht
        · exact e2 t ht
        · rw [List.mem_singleton] at ht
          subst ht
          refine ⟨?_, rfl⟩
          simp only [Thread.returned]
          cases c <;> simp [prog, setLoggerBody]
      · obtain ⟨t, h1, h2⟩ := e4
        exact ⟨t, List.mem_append.mpr (.inl h1), h2⟩
  exact this.2

/-- C37: whenever an `EnableLogging` call has been made and the mutex is free, that situation is one
step away. -/
theorem c37_wedges (s : St) (h : Steps init s) (t : Thread) (ht : t ∈ s.threads)
    (l : Option Nat) (hl : t.call = .enableLogging l) (hf : s.locked = false) :
    ∃ s', Step s s' ∧ Wedged s' := by
  have hi := steps_inv h
  have hp : t.pc = 0 := by
    have h1 := hi.en t ht ⟨l, hl⟩
    rcases Nat.lt_or_ge t.pc 1 with h | h
    · omega
    · exfalso
      have : 0 < s.threads.countP Thread.holding :=
        List.countP_pos_iff.mpr ⟨t, ht, by simp [Thread.holding, hl, prog, setLoggerBody]; omega⟩
      rw [hi.hold, hf] at this
      exact absurd this (by decide)
  obtain ⟨i, hlt, hg⟩ := List.mem_iff_getElem.mp ht
  refine ⟨_, .exec s { s with locked := true } i t .lock (by rw [List.getElem?_eq_getElem hlt, hg])
    (by rw [hl, hp]; rfl) (by rw [exec, hf]; rfl), { t with pc := t.pc + 1 }, ?_, ⟨l, hl⟩, by rw [hp]⟩
  exact List.mem_iff_getElem.mpr ⟨i, by simpa using hlt, by simp⟩

/-- Operations still to be done by all calls in progress. -/
def remaining (s : St) : Nat := (s.threads.map fun t => (prog t.call).length - t.pc).sum

theorem sum_set (l : List Thread) (f : Thread → Nat) : ∀ (i : Nat) (a : Thread) (h : i < l.length),
    ((l.set i a).map f).sum + f l[i] = (l.map f).sum + f a := by
  induction l with
  | nil => intro i a h; simp at h
  | cons x l ih =>
    intro i a h
    cases i with
    | zero => simp; omega
    | succ i =>
      have := ih i a (by simpa using h)
      simp only [List.set_cons_succ, List.map_cons, List.sum_cons, List.getElem_cons_succ]
      omega

/-- C37: as long as nobody calls `EnableLogging`, every call returns: in each reachable state either
all calls have returned or one of them can step, and a step of a call strictly decreases the finite
number of operations left. -/
theorem c37_otherwise (s : St) (h : Steps init s) (hne : ∀ t ∈ s.threads, ∀ l, t.call ≠ .enableLogging l) :
    ((∀ t ∈ s.threads, t.returned) ∨ ∃ s', Step s s' ∧ remaining s' < remaining s) ∧
    (∀ s', Step s s' → remaining s' < remaining s ∨ ∃ c, s'.threads = s.threads ++ [⟨c, 0⟩]) := by
  have hi := steps_inv h
  have dec : ∀ (s1 : St) (i : Nat) (t : Thread) (op : Instr), s.threads[i]? = some t →
      (prog t.call)[t.pc]? = some op → exec op s = some s1 →
      remaining { s1 with threads := s.threads.set i { t with pc := t.pc + 1 } } < remaining s := by
    intro s1 i t op hg hop he
    have hlt : i < s.threads.length := (List.getElem?_eq_some_iff.mp hg).1
    have hget : s.threads[i] = t := (List.getElem?_eq_some_iff.mp hg).2
    have hpc : t.pc < (prog t.call).length := (List.getElem?_eq_some_iff.mp hop).1
    have := sum_set s.threads (fun t => (prog t.call).length - t.pc) i { t with pc := t.pc + 1 } hlt
    simp only [remaining]
    rw [hget] at this
    simp only at this
    omega
  refine ⟨?_, ?_⟩
  · by_cases hall : ∀ t ∈ s.threads, t.returned
    · exact .inl hall
    · right
      -- choose the holder if the mutex is locked, any unfinished call otherwise
      have : ∃ t ∈ s.threads, ¬ t.returned ∧ (s.locked = true → t.holding = true) := by
        cases hl : s.locked with
        | true =>
          have h1 := hi.hold
          rw [hl] at h1
          obtain ⟨t, ht, hh⟩ := List.countP_pos_iff.mp (by rw [h1]; decide : 0 < s.threads.countP Thread.holding)
          refine ⟨t, ht, ?_, fun _ => hh⟩
          simp only [Thread.holding, decide_eq_true_eq] at hh
          rw [Thread.returned]; omega
        | false =>
          have : ∃ t ∈ s.threads, ¬ t.returned := by
            apply Classical.byContradiction
            intro hn
            exact hall fun t ht => Classical.byContradiction fun h => hn ⟨t, ht, h⟩
          obtain ⟨t, ht, hr⟩ := this
          exact ⟨t, ht, hr, fun h => by cases h⟩
      obtain ⟨t, ht, hr, hh⟩ := this
      obtain ⟨i, hlt, hg⟩ := List.mem_iff_getElem.mp ht
      have hg' : s.threads[i]? = some t := by rw [List.getElem?_eq_getElem hlt, hg]
      have hpc : t.pc < (prog t.call).length := by rw [Thread.returned] at hr; omega
      have hop : (prog t.call)[t.pc]? = some (prog t.call)[t.pc] := List.getElem?_eq_getElem hpc
      have hex : ∃ s1, exec (prog t.call)[t.pc] s = some s1 := by
        cases hop' : (prog t.call)[t.pc] with
        | lock =>
          cases hl : s.locked with
          | false => exact ⟨_, by rw [exec, hl]; rfl⟩
          | true =>
            exfalso
            have hh := hh hl
            simp only [Thread.holding, decide_eq_true_eq] at hh
            rw [hop'] at hop
            cases hc : t.call with
            | enableLogging l => exact hne t ht l hc
            | _ =>
              rw [hc] at hop hh
              simp only [prog, setLoggerBody, List.length_cons, List.length_nil] at hop hh
              have : t.pc = 1 ∨ t.pc = 2 := by omega
              rcases this with h | h <;> rw [h] at hop <;> simp at hop
        | unlock => exact ⟨_, rfl⟩
        | assign l => cases l <;> exact ⟨_, rfl⟩
        | discard => exact ⟨_, rfl⟩
        | print x => exact ⟨_, rfl⟩
      obtain ⟨s1, he⟩ := hex
      exact ⟨_, .exec s s1 i t _ hg' hop he, dec s1 i t _ hg' hop he⟩
  · intro s' hs
    cases hs with
    | call c => exact .inr ⟨c, rfl⟩
    | exec s1 i t op hg hop he => exact .inl (dec s1 i t op hg hop he)

-- an execution that wedges: one EnableLogging call
/-- For the theorems on C37. -/
example : ∃ s, Steps init s ∧ Wedged s :=
  ⟨_, .tail (.tail (.refl _) (.call init (.enableLogging none)))
    (.exec _ { init with locked := true, threads := [⟨.enableLogging none, 0⟩] } 0 ⟨.enableLogging none, 0⟩ .lock rfl rfl rfl),
    ⟨.enableLogging none, 1⟩, by simp [init], ⟨none, rfl⟩, rfl⟩

/-! ### C65 -/

theorem silent_step {s s' : St} (h : Step s s') (d : Dest) (hd : d ∈ s.discarded) :
    d ∈ s'.discarded ∧ s'.lines.filter (fun x => x.1 = d) = s.lines.filter (fun x => x.1 = d) := by
  cases h with
  | call c => exact ⟨hd, rfl⟩
  | exec s1 i t op hg hop he =>
    show d ∈ s1.discarded ∧ s1.lines.filter _ = _
    cases op with
    | lock => simp only [exec] at he; split at he <;> cases he; exact ⟨hd, rfl⟩
    | unlock => cases he; exact ⟨hd, rfl⟩
    | assign l => cases l <;> cases he <;> exact ⟨hd, rfl⟩
    | discard => cases he; exact ⟨List.mem_cons_of_mem _ hd, rfl⟩
    | print x =>
      cases he
      split
      · exact ⟨hd, rfl⟩
      · rename_i hn
        refine ⟨hd, ?_⟩
        have hne : s.cur ≠ d := fun h => hn (h ▸ hd)
        simp [List.filter_append, hne]

/-- C65: a logger whose output `DisableLogging` discarded is never written to again, whatever is
called later (also if it is passed to `SetLogger` again). -/
theorem c65_silent (s s' : St) (h : Steps s s') (d : Dest) (hd : d ∈ s.discarded) :
    s'.lines.filter (fun x => x.1 = d) = s.lines.filter (fun x => x.1 = d) := by
  have : d ∈ s'.discarded ∧ s'.lines.filter (fun x => x.1 = d) = s.lines.filter (fun x => x.1 = d) := by
    induction h with
    | refl => exact ⟨hd, rfl⟩
    | tail _ hs ih =>
      obtain ⟨h1, h2⟩ := ih
      obtain ⟨h3, h4⟩ := silent_step hs d h1
      exact ⟨h3, h4.trans h2⟩
  exact this.2

/-- C65: whichever logger is current when `DisableLogging` runs is the one discarded: the user's own
logger after `SetLogger`. -/
theorem c65_discards (s s' : St) (i : Nat) (h : s.threads[i]? = some ⟨.disableLogging, 1⟩)
    (hs : Step s s') (hi : s'.threads[i]? = some ⟨.disableLogging, 2⟩) : s.cur ∈ s'.discarded := by
  cases hs with
  | call c =>
    exfalso
    have hlt : i < s.threads.length := (List.getElem?_eq_some_iff.mp h).1
    change (s.threads ++ [⟨c, 0⟩])[i]? = _ at hi
    rw [List.getElem?_append_left hlt, h] at hi
    cases hi
  | exec s1 j t op hg hop he =>
    change (s.threads.set j _)[i]? = _ at hi
    by_cases hj : j = i
    · subst hj
      rw [h] at hg
      cases hg
      have : op = .discard := by simpa [prog] using hop.symm
      subst this
      simp only [exec] at he
      cases he
      exact List.mem_cons_self
    · rw [List.getElem?_set, if_neg hj, h] at hi
      cases hi

example : (St.mk true (.user 7) 0 [] [] [⟨.disableLogging, 1⟩]).threads[0]? = some ⟨.disableLogging, 1⟩ := rfl

/-- What thread `i` did in a step in which it advanced. -/
theorem own_step {s s' : St} (hs : Step s s') {i : Nat} {c : Call} {n : Nat} (h : s.threads[i]? = some ⟨c, n⟩)
    (hi : s'.threads[i]? = some ⟨c, n + 1⟩) : ∃ op s1, (prog c)[n]? = some op ∧ exec op s = some s1 ∧
      s'.cur = s1.cur ∧ s'.discarded = s1.discarded ∧ s'.lines = s1.lines := by
  cases hs with
  | call c' =>
    exfalso
    have hlt : i < s.threads.length := (List.getElem?_eq_some_iff.mp h).1
    change (s.threads ++ [⟨c', 0⟩])[i]? = _ at hi
    rw [List.getElem?_append_left hlt, h] at hi
    simp at hi
  | exec s1 j t op hg hop he =>
    change (s.threads.set j _)[i]? = _ at hi
    by_cases hj : j = i
    · subst hj
      rw [h] at hg
      cases hg
      exact ⟨op, s1, hop, he, rfl, rfl, rfl⟩
    · rw [List.getElem?_set, if_neg hj, h] at hi
      simp at hi

/-- Loggers that were made have numbers below `made`. -/
theorem made_inv {s : St} (h : Steps init s) : (∀ n, s.cur = .fresh n → n < s.made) ∧ ∀ n, .fresh n ∈ s.discarded → n < s.made := by
  generalize hi : init = i at h
  induction h with
  | refl => subst hi; exact ⟨nofun, nofun⟩
  | tail _ hs ih =>
    obtain ⟨h1, h2⟩ := ih
    cases hs with
    | call c => exact ⟨h1, h2⟩
    | exec s1 j t op hg hop he =>
      show (∀ n, s1.cur = .fresh n → n < s1.made) ∧ ∀ n, .fresh n ∈ s1.discarded → n < s1.made
      cases op with
      | lock => simp only [exec] at he; split at he <;> cases he; exact ⟨h1, h2⟩
      | unlock => cases he; exact ⟨h1, h2⟩
      | assign l =>
        cases l with
        | none =>
          cases he
          exact ⟨fun n hn => by cases hn; exact Nat.lt_succ_self _, fun n hn => Nat.lt_succ_of_lt (h2 n hn)⟩
        | some i => cases he; exact ⟨nofun, h2⟩
      | discard =>
        cases he
        refine ⟨h1, fun n hn => ?_⟩
        rcases List.mem_cons.mp hn with hn | hn
        · exact h1 n hn.symm
        · exact h2 n hn
      | print x => cases he; split <;> exact ⟨h1, h2⟩

/-- C65: `SetLogger` makes the given logger the current one; with nil it makes a new one, which no `DisableLogging` has silenced. -/
theorem c65_set (s s' : St) (h : Steps init s) (l : Option Nat) (i : Nat) (hp : s.threads[i]? = some ⟨.setLogger l, 1⟩) (hs : Step s s')
    (hn : s'.threads[i]? = some ⟨.setLogger l, 2⟩) :
    match l with
    | some k => s'.cur = .user k
    | none => s'.cur ∉ s'.discarded ∧ s'.cur ≠ .default ∧ ∀ k, s'.cur ≠ .user k := by
  obtain ⟨op, s1, h1, h2, h3, h4, -⟩ := own_step hs hp hn
  cases h1
  cases l with
  | some k => cases h2; exact h3
  | none =>
    cases h2
    dsimp only at h3 h4 ⊢
    rw [h3, h4]
    exact ⟨fun hm => Nat.lt_irrefl _ ((made_inv h).2 _ hm), nofun, nofun⟩

/-- C65: a line goes to the logger that is current, and to no other; it is dropped iff that one was silenced. -/
theorem c65_line (s s' : St) (x : Nat) (i : Nat) (hp : s.threads[i]? = some ⟨.logf x, 1⟩) (hs : Step s s')
    (hn : s'.threads[i]? = some ⟨.logf x, 2⟩) :
    (s.cur ∈ s.discarded → s'.lines = s.lines) ∧ (s.cur ∉ s.discarded → s'.lines = s.lines ++ [(s.cur, x)]) := by
  obtain ⟨op, s1, h1, h2, -, -, h5⟩ := own_step hs hp hn
  cases h1
  cases h2
  rw [h5]
  exact ⟨fun h => by rw [if_pos h], fun h => by rw [if_neg h]⟩

/-- For `c65_silent` and `c65_set`: A run: `DisableLogging`, then `SetLogger(nil)` up to its assignment. -/
example : ∃ s s', Steps init s ∧ s.threads[1]? = some ⟨.setLogger none, 1⟩ ∧ s.discarded = [.default] ∧ Step s s' ∧
    s'.threads[1]? = some ⟨.setLogger none, 2⟩ ∧ s'.cur = .fresh 0 := by
  have h1 : Steps init ⟨false, .default, 0, [], [], [⟨.disableLogging, 0⟩]⟩ := .tail (.refl _) (.call _ .disableLogging)
  have h2 : Steps init ⟨false, .default, 0, [], [], [⟨.disableLogging, 0⟩, ⟨.setLogger none, 0⟩]⟩ := .tail h1 (.call _ (.setLogger none))
  have h3 : Steps init ⟨true, .default, 0, [], [], [⟨.disableLogging, 1⟩, ⟨.setLogger none, 0⟩]⟩ :=
    .tail h2 (.exec _ ⟨true, .default, 0, [], [], _⟩ 0 ⟨.disableLogging, 0⟩ .lock rfl rfl rfl)
  have h4 : Steps init ⟨true, .default, 0, [.default], [], [⟨.disableLogging, 2⟩, ⟨.setLogger none, 0⟩]⟩ :=
    .tail h3 (.exec _ ⟨true, .default, 0, [.default], [], _⟩ 0 ⟨.disableLogging, 1⟩ .discard rfl rfl rfl)
  have h5 : Steps init ⟨false, .default, 0, [.default], [], [⟨.disableLogging, 3⟩, ⟨.setLogger none, 0⟩]⟩ :=
    .tail h4 (.exec _ ⟨false, .default, 0, [.default], [], _⟩ 0 ⟨.disableLogging, 2⟩ .unlock rfl rfl rfl)
  have h6 : Steps init ⟨true, .default, 0, [.default], [], [⟨.disableLogging, 3⟩, ⟨.setLogger none, 1⟩]⟩ :=
    .tail h5 (.exec _ ⟨true, .default, 0, [.default], [], _⟩ 1 ⟨.setLogger none, 0⟩ .lock rfl rfl rfl)
  exact ⟨_, _, h6, rfl, rfl,
    .exec _ ⟨true, .fresh 0, 1, [.default], [], _⟩ 1 ⟨.setLogger none, 1⟩ (.assign none) rfl rfl rfl, rfl, rfl⟩

end Logger
end M3
