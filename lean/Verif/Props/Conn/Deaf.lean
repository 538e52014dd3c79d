import Verif.Lemmas.Conn.Role
import Verif.Lemmas.Conn.Sched
import Verif.Spec.Handling

/- While it waits for the next datagram, the connection notices nothing else: C76. -/

set_option autoImplicit false
set_option linter.unusedSimpArgs false

namespace M3.Conn

open Spec

/-- Goroutine `i` of a connection is waiting for `SCTPRead` to return. -/
def World.reading (w : World) (i : Nat) : Prop :=
  ∃ hist n k, w.threads[i]? = some ⟨.monitorLoop, hist, .op (.read n) k⟩

/-- What the others do meanwhile. -/
structure Meanwhile (w w' : World) (l : List Rec) : Prop where
  trace : w'.trace = w.trace ++ l
  /-- no error and no state is taken notice of -/
  noError : complaints l = []
  noState : reports l = []
  /-- nobody closes the association but the user, or `Dial` / `Accept` when they give up -/
  closer : ∀ x ∈ l, x.ev.op = .sctpClose → x.gor = .api .close ∨ x.gor = .main
  /-- unless the user calls `Close`, the state stays as it is, and `State()` says so -/
  state : (∀ x ∈ l, x.gor ≠ .api .close) → w'.sh.st = w.sh.st ∧ ∀ s ∈ observes l, s = w.sh.st

theorem Meanwhile.nil {w w' : World} (h1 : w'.trace = w.trace) (h2 : w'.sh.st = w.sh.st) : Meanwhile w w' [] :=
  ⟨by simp [h1], rfl, rfl, fun _ hx => absurd hx List.not_mem_nil, fun _ => ⟨h2, fun _ hx => absurd hx List.not_mem_nil⟩⟩

theorem Meanwhile.trans {a b c : World} {l m : List Rec} (h : Meanwhile a b l) (h' : Meanwhile b c m) :
    Meanwhile a c (l ++ m) := by
  refine ⟨by rw [h'.trace, h.trace, List.append_assoc], ?_, ?_, ?_, ?_⟩
  · rw [complaints, List.filterMap_append]
    exact List.append_eq_nil_iff.mpr ⟨h.noError, h'.noError⟩
  · rw [reports, List.filterMap_append]
    exact List.append_eq_nil_iff.mpr ⟨h.noState, h'.noState⟩
  · intro x hx
    rcases List.mem_append.mp hx with hx | hx
    · exact h.closer x hx
    · exact h'.closer x hx
  · intro hn
    obtain ⟨h1, h2⟩ := h.state fun x hx => hn x (List.mem_append_left _ hx)
    obtain ⟨h3, h4⟩ := h'.state fun x hx => hn x (List.mem_append_right _ hx)
    refine ⟨h3.trans h1, fun s hs => ?_⟩
    rw [observes, List.filterMap_append] at hs
    rcases List.mem_append.mp hs with hs | hs
    · exact h2 s hs
    · exact (h4 s hs).trans h1

theorem deaf_step {E : Env} {w w' : World} (h : Reachable E w) (hr : w.reading 2) (hs : Step E w w') (hq : w'.of 2 = w.of 2) :
    w'.reading 2 ∧ ∃ l, Meanwhile w w' l := by
  obtain ⟨hist, n, k, ht2⟩ := hr
  have hlt : 2 < w.threads.length := (List.getElem?_eq_some_iff.mp ht2).1
  cases hs with
  | env _ he => cases he <;> exact ⟨⟨hist, n, k, ht2⟩, [], .nil rfl rfl⟩
  | call => exact ⟨⟨hist, n, k, by simpa only [List.getElem?_append_left hlt] using ht2⟩, [], .nil rfl rfl⟩
  | loop i g g' hist' _ ht =>
    have hne : i ≠ 2 := by rintro rfl; rw [ht2] at ht; cases ht
    exact ⟨⟨hist, n, k, by simp only [List.getElem?_set_ne hne]; exact ht2⟩, [], .nil rfl rfl⟩
  | crash => exact ⟨⟨hist, n, k, ht2⟩, [], .nil rfl rfl⟩
  | run i g hist' o k' r _ ht hx =>
    have hne : i ≠ 2 := by
      rintro rfl
      rw [World.of, World.of, List.filter_append] at hq
      simp at hq
    have hro := Role.pending h ht
    have hmon : g = .monitorLoop → False := by rintro rfl; exact hne (hro.1.2.2.mp rfl)
    refine ⟨⟨hist, n, k, by rw [List.getElem?_append_left (by simpa using hlt), List.getElem?_set_ne hne]; exact ht2⟩, _, rfl, ?_, ?_, ?_, ?_⟩
    · cases hx <;> rfl
    · cases hx <;> rfl
    · intro x hx' ho
      cases List.mem_singleton.mp hx'
      simp only at ho
      subst ho
      have := hro.2
      simp [Role.role] at this
      rcases this with h | h | h
      · exact (hmon h).elim
      · exact .inl h
      · exact .inr h
    · intro hn
      have hc : g ≠ .api .close := hn _ (List.mem_singleton.mpr rfl)
      have hput : ∀ s, o ≠ .putSt s := by
        rintro s rfl
        have := hro.2
        simp [Role.role, hc] at this
        exact hmon this
      clear hro
      cases hx <;>
        first
        | exact absurd rfl (hput _)
        | exact ⟨rfl, fun _ hx => absurd hx List.not_mem_nil⟩
        | exact ⟨rfl, by simp [observes, observed?]⟩
  | sync i j gi gj hi' hj' oi oj ki kj ri rj _ hij hti htj hx =>
    have hi2 : i ≠ 2 := by
      rintro rfl
      rw [World.of, World.of, List.filter_append] at hq
      simp at hq
    have hj2 : j ≠ 2 := by
      rintro rfl
      rw [World.of, World.of, List.filter_append] at hq
      simp at hq
    have mon : ∀ {j : Nat} {gj : Gor} {hj' : List Ev} {kj : Resp .monSelect → Prog (Option Gor)},
        j ≠ 2 → w.threads[j]? = some ⟨gj, hj', .op .monSelect kj⟩ → False := by
      intro j gj hj' kj hj htj
      have hr := Role.pending h htj
      have hg : gj = .monitorLoop := by simpa [Role.role] using hr.2
      subst hg
      exact hj (hr.1.2.2.mp rfl)
    refine ⟨⟨hist, n, k, by simp only [List.getElem?_set_ne hj2, List.getElem?_set_ne hi2]; exact ht2⟩, _, rfl, ?_, ?_, ?_, ?_⟩
    · cases hx <;> first | rfl | exact (mon hj2 htj).elim
    · cases hx <;> first | rfl | exact (mon hj2 htj).elim
    · intro x hx' ho
      cases hx <;> simp only [List.mem_cons, List.not_mem_nil, or_false] at hx' <;> rcases hx' with rfl | rfl <;> cases ho
    · intro _
      cases hx <;> exact ⟨rfl, fun _ hx => absurd hx List.not_mem_nil⟩

theorem World.of_prefix {E : Env} {w w' : World} {i : Nat} (hs : Steps E w w') : ∃ l, w'.of i = w.of i ++ l := by
  induction hs with
  | refl => exact ⟨[], by simp⟩
  | tail _ hst ih =>
    obtain ⟨l, hl⟩ := ih
    obtain ⟨m, hm⟩ := Step.trace hst
    exact ⟨l ++ m.filter fun x => x.tid == i, by rw [World.of, hm, List.filter_append, ← List.append_assoc, ← hl]; rfl⟩

/-- **C76.** While the goroutine that runs `monitor` waits for a datagram, the connection takes notice of nothing else:
no error that a goroutine has to report (such as an expired heartbeat), no state, no cancelled context.  Until the
read returns, nobody closes the association except `Close` or `Dial`/`Accept` giving up; and unless the user calls
`Close`, the state stays what it was and `State()` keeps saying so. -/
theorem c76_deaf {E : Env} {w w' : World} (h : Reachable E w) (hr : w.reading 2) (hs : Steps E w w') (hq : w'.of 2 = w.of 2) :
    w'.reading 2 ∧ ∃ l, Meanwhile w w' l := by
  induction hs with
  | refl => exact ⟨hr, [], .nil rfl rfl⟩
  | @tail v v' hs hst ih =>
    obtain ⟨l, hl⟩ := World.of_prefix (i := 2) hs
    obtain ⟨m, hm⟩ := World.of_prefix (i := 2) (.tail (.refl v) hst)
    have hlm : l ++ m = [] := by
      have : w.of 2 ++ (l ++ m) = w.of 2 ++ [] := by rw [← List.append_assoc, ← hl, ← hm, hq, List.append_nil]
      exact List.append_cancel_left this
    obtain ⟨rfl, rfl⟩ := List.append_eq_nil_iff.mp hlm
    rw [List.append_nil] at hl hm
    obtain ⟨hv, l₁, h₁⟩ := ih hl
    obtain ⟨hv', l₂, h₂⟩ := deaf_step (Steps.trans h hs) hv hst hm
    exact ⟨hv', _, h₁.trans h₂⟩

/-- The goroutine with number 2 is waiting for a datagram. -/
def World.reads (w : World) : Bool :=
  match (w.threads[2]? : Option Thread) with
  | some ⟨.monitorLoop, _, .op (.read _) _⟩ => true
  | _ => false

theorem World.reads_reading {w : World} (h : w.reads = true) : w.reading 2 := by
  unfold reads at h
  split at h
  · exact ⟨_, _, _, by assumption⟩
  · cases h

/-- Goroutine `i` wants to report the error `e`. -/
def World.reporting (w : World) (i : Nat) (e : CErr) : Prop :=
  ∃ g hist k, w.threads[i]? = some ⟨g, hist, .op (.sendErr e) k⟩

/-- The error that goroutine 3 wants to report. -/
def World.report3 (w : World) : Option CErr :=
  match (w.threads[3]? : Option Thread) with
  | some ⟨_, _, .op (.sendErr e) _⟩ => some e
  | _ => none

theorem World.report3_reporting {w : World} {e : CErr} (h : w.report3 = some e) : w.reporting 3 e := by
  unfold report3 at h
  split at h
  · cases h; exact ⟨_, _, _, by assumption⟩
  · cases h

/-- **C76**, cancelled context: for every configuration, an established connection whose context has been cancelled
can stay `AspActive`: the monitor is waiting for a datagram, the association is open, and by `c76_deaf` nothing
changes that before the peer sends one. -/
theorem c76_cancelled (E : Env) : ∃ w, Reachable E w ∧ w.sh.ctxDone = true ∧ w.reading 2 ∧ w.sh.st = .active ∧
    w.sh.sctpClosed = false ∧ w.sh.handed = true := by
  have h : (play (body' E) (init E) (opening E.mode ++ [.cancel])).map
      (fun w => (w.sh.ctxDone, w.reads, w.sh.st, w.sh.sctpClosed, w.sh.handed)) = some (true, true, .active, false, true) := by
    obtain ⟨mode, cfg, hb, ms⟩ := E
    cases mode <;> kernel_rfl
  obtain ⟨w, hw, he⟩ := reach_of h
  simp only [Prod.mk.injEq] at he
  exact ⟨w, hw, he.1, World.reads_reading he.2.1, he.2.2⟩

/-- **C76**, expired heartbeat: with heartbeats enabled, the peer need not answer a heartbeat at all: the connection
can stay `AspActive` with the goroutine that found the heartbeat expired waiting for someone to tell. -/
theorem c76_expired (E : Env) (he : E.hb.enabled = true) : ∃ w, Reachable E w ∧ w.reporting 3 .heartbeatExpired ∧
    w.reading 2 ∧ w.sh.st = .active ∧ w.sh.sctpClosed = false ∧ w.sh.handed = true := by
  have h : (play (body' E) (init E) (openingBeatOf E.mode ++ go 3 1 ++ beat (List.replicate 128 7) ++ [.run 3 .timer])).map
      (fun w => (w.report3, w.reads, w.sh.st, w.sh.sctpClosed, w.sh.handed)) =
        some (some .heartbeatExpired, true, .active, false, true) := by
    obtain ⟨mode, cfg, ⟨en, a, b, c⟩, ms⟩ := E
    simp only at he
    subst he
    cases mode <;> kernel_rfl
  obtain ⟨w, hw, he⟩ := reach_of h
  simp only [Prod.mk.injEq] at he
  exact ⟨w, hw, World.report3_reporting he.1, World.reads_reading he.2.1, he.2.2⟩

/-- A case of `c76_deaf`: the context is cancelled and the user asks for the state. -/
example : ∃ w w', Reachable E₀ w ∧ Steps E₀ w w' ∧ w.reading 2 ∧ w'.of 2 = w.of 2 ∧ w'.sh.ctxDone = true ∧
    returns w'.trace = [.state .active] := by
  have h : ((play (body' E₀) (init E₀) (opening .client)).bind fun w =>
      (play (body' E₀) w ([.cancel, .call .state] ++ go 5 2)).map fun w' =>
        (w.reads, (w'.of 2).length == (w.of 2).length, w'.sh.ctxDone, returns w'.trace)) =
      some (true, true, true, [.state .active]) := by kernel_rfl
  obtain ⟨w, w', hw, hs, he⟩ := reach_then (f := fun w w' =>
    (w.reads, (w'.of 2).length == (w.of 2).length, w'.sh.ctxDone, returns w'.trace)) h
  simp only [Prod.mk.injEq] at he
  refine ⟨w, w', hw, hs, World.reads_reading he.1, ?_, he.2.2⟩
  obtain ⟨l, hl⟩ := World.of_prefix (i := 2) hs
  have := he.2.1
  rw [hl] at this ⊢
  simpa using this

end M3.Conn
