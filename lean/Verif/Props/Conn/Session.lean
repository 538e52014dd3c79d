import Verif.Lemmas.Conn.CalmRest
import Verif.Lemmas.Conn.ShakeSim
import Verif.Props.Conn.Kept

/- A session without disturbances: C84. -/

set_option autoImplicit false
set_option linter.unusedSimpArgs false

namespace M3.Conn

open Spec

/-- C84: while nothing goes wrong outside the library, it does not panic and reports no error (so it sends no Error message either and
refuses no DATA), and the state is the one that follows from the number of datagrams received, apart from the last one, which may
still be in work. -/
theorem c84_safe {E : Env} (hE : E.maxStream ≠ 0) {w : World} (h : Reachable E w) (hu : Undisturbed E.mode w) :
    w.sh.crashed = false ∧ complaints w.trace = [] ∧
    (w.sh.st = stageAt (receives w.trace).length ∨ w.sh.st = stageAt ((receives w.trace).length - 1)) := by
  obtain ⟨ss, hl, hi⟩ := Calm.roles hE h hu
  refine ⟨hi.opens.crashed, ?_, hi.state⟩
  rw [complaints, List.filterMap_eq_nil_iff]
  intro x hx
  have := hi.quiet x hx
  obtain ⟨j, g, o, r⟩ := x
  cases o <;> first | rfl | exact (this _ rfl).elim

/-- C84: the library does not get stuck. When its goroutines have nothing left to do, every datagram that arrived has been read, the state is the one that follows
from their number, nobody holds the lock, and if there were two, `Dial` or `Accept` has returned the connection. All handlers have ended,
unless the queue of 65535 payloads is full. -/
theorem c84_rest {E : Env} (hE : E.maxStream ≠ 0) {w : World} (h : Reachable E w) (hu : Undisturbed E.mode w) (hr : Idle E w) :
    w.sh.inbox = [] ∧ w.sh.st = stageAt (receives w.trace).length ∧ w.sh.locked = false ∧
    (2 ≤ (receives w.trace).length → .conn ∈ w.openings) ∧ (Settled w ∨ 65535 ≤ w.sh.dataQ.length) := by
  obtain ⟨ss, hl, hi⟩ := Calm.roles hE h hu
  obtain ⟨i, hs, hin⟩ := Calm.rest h hl hi hr
  obtain ⟨h1, h2, h3⟩ := (show _ ∧ _ ∧ _ from hi.fact i _ hs)
  have hc := hi.opens.crashed
  refine ⟨hin, h1, h2, fun hn => ?_, ?_⟩
  · rcases hi.conn with ⟨j, s, hj, ho⟩ | ⟨x, hx, hx'⟩
    · have hm := hi.main
      rw [h3, decide_eq_true hn] at hm
      obtain ⟨⟨g, e, p⟩, ht⟩ := getElem?_some_of_length hl.1.symm hj
      cases s <;> first | (cases ho; done) | skip
      · have := tot_ge Calm.mainN hj
        rw [hm] at this
        simp [Calm.mainN] at this
      · rcases Calm.pending h hl ht hj (fun h => h) with ⟨o, k, rfl, hf, hk⟩ | ⟨g', -, h⟩
        · obtain rfl : o = .opened .conn := hk
          exact (Calm.no_run hr hc ht .opened rfl (Calm.not_user hf (by simp) (by simp) (by simp))).elim
        · cases h
    · exact List.mem_filterMap.mpr ⟨x, hx, by rw [hx']; rfl⟩
  · by_cases hq : 65535 ≤ w.sh.dataQ.length
    · exact .inr hq
    refine .inl fun t ht o k hp => ?_
    obtain ⟨j, htj⟩ := List.getElem?_of_mem ht
    obtain ⟨s, hj⟩ := getElem?_some_of_length hl.1 htj
    obtain ⟨g, e, p⟩ := t
    simp only at hp
    subst hp
    obtain ⟨hf, hok⟩ := (hl.2 j _ s htj hj).1
    have hF := hi.fact j s hj
    have htok : s ≠ .ready → s.tok = false := fun hne => by
      refine Calm.tok_zero hi.tok rfl ?_ hs rfl hj
      rintro rfl
      rw [hs] at hj; cases hj; exact hne rfl
    have hd : s ≠ .dat := by
      rintro rfl
      have hg := Calm.not_user hf (by simp) (by simp) (by simp)
      cases o <;> first | (cases hok; done) | skip
      · exact Calm.no_run hr hc htj (.state h2) rfl hg
      · exact Calm.no_run hr hc htj (.sendData hi.opens.data (by unfold dataCap; omega)) rfl hg
    refine ⟨?_, ?_, ?_⟩
    · rintro b rfl
      cases s <;> simp only [Calm.Fits, reduceCtorEq, or_self, exists_false] at hf <;> first | exact hF.elim | skip
      all_goals exact absurd (htok (by simp)) (by simp [Calm.G.tok])
    · rintro m rfl
      cases s <;> simp only [Calm.Fits, reduceCtorEq] at hf <;> first | exact hF.elim | skip
      exact hd rfl
    · rintro b rfl
      cases s <;> first | exact hF.elim | (cases hok; done) | skip
      · rcases hok with h | h <;> cases h
      · obtain ⟨-, m, h, -⟩ := hok; cases h
      · exact absurd (htok (by simp)) (by simp [Calm.G.tok])

open Classical in
/-- C84: then nothing is lost: every payload received has been taken by a reader or is in the queue. -/
theorem c84_delivered {E : Env} (hE : E.maxStream ≠ 0) {w : World} (h : Reachable E w) (hu : Undisturbed E.mode w) (hr : Idle E w)
    (hq : w.sh.dataQ.length < 65535) (P : ProtocolDataPayload → Prop) :
    (takes w.trace).countP (fun x => ∃ pd, x = some pd ∧ P pd) + w.sh.dataQ.countP (fun pd => P pd) =
      (receives w.trace).countP (fun raw => ∃ pd, carries raw pd ∧ P pd) := by
  refine c83_received h hu.ctx ?_ ?_ P
  · rcases (c84_rest hE h hu hr).2.2.2.2 with h | h
    · exact h
    · omega
  · rw [(c84_safe hE h hu).2.1]; exact fun _ h => by cases h

/-- Can be evaluated: every goroutine has ended, or waits for a datagram or to be woken. -/
def idleB (w : World) : Bool :=
  w.threads.all fun t => match t.prog with
    | .ret none => true
    | .op (.read _) _ => w.sh.inbox.isEmpty
    | .op .waitLeave _ => w.sh.cond ≠ .woken
    | _ => false

theorem idleB_sound {E : Env} {w : World} (h : idleB w = true) : Idle E w := by
  have key : ∀ {i : Nat} {g : Gor} {e : List Ev} {p : Prog (Option Gor)}, w.threads[i]? = some ⟨g, e, p⟩ →
      p = .ret none ∨ (∃ n k, p = .op (.read n) k ∧ w.sh.inbox = []) ∨ ∃ k, p = .op .waitLeave k ∧ w.sh.cond ≠ .woken := by
    intro i g e p ht
    have := List.all_eq_true.mp h _ (List.mem_of_getElem? ht)
    simp only at this
    split at this
    · exact .inl rfl
    · exact .inr (.inl ⟨_, _, rfl, by simpa using this⟩)
    · exact .inr (.inr ⟨_, rfl, by simpa using this⟩)
    · cases this
  intro w' hw
  exfalso
  cases hw with
  | run i g e o k r hc ht hx hm =>
    rcases key ht with h | ⟨n, k', h, h'⟩ | ⟨k', h, h'⟩
    · cases h
    · cases h
      cases hx with
      | read _ h1 _ => rw [h'] at h1; cases h1
      | readPart _ h1 _ => rw [h'] at h1; cases h1
      | readFail => cases hm
    · cases h
      cases hx with
      | waitLeave h1 => exact h' h1
  | sync i j gi gj hi hj oi oj ki kj ri rj hc hij hti htj hx =>
    rcases key hti with h | ⟨n, k', h, h'⟩ | ⟨k', h, h'⟩ <;> cases h <;> cases hx
  | loop i g g' e hc ht =>
    rcases key ht with h | ⟨n, k', h, h'⟩ | ⟨k', h, h'⟩ <;> cases h
  | crash i g e o k hc ht hx =>
    rcases key ht with h | ⟨n, k', h, h'⟩ | ⟨k', h, h'⟩ <;> cases h <;> cases hx

/-- A client receives ASP Up Ack, ASP Active Ack and two DATA messages; the user reads one payload. All premises hold. -/
example : ∃ w, Reachable E₀ w ∧ E₀.maxStream ≠ 0 ∧ Undisturbed E₀.mode w ∧ Idle E₀ w ∧
    receives w.trace = [message 1 3 4 [], message 1 4 3 [], dataMsg₁ 7, dataMsg₁ 8] ∧
    w.sh.dataQ = [⟨0, 0, 0, 0, 0, 0, [8]⟩] ∧ returns w.trace = [.pd ⟨0, 0, 0, 0, 0, 0, [7]⟩] := by
  obtain ⟨w, h1, h2⟩ := reach_of (E := E₀) (f := fun w => (w.sh.ctxDone, w.trace.all (fun x => x.gor ≠ .api .close),
      w.trace.all (fun x => ofUser x.gor || x.ev.calm), idleB w, receives w.trace, w.sh.dataQ, returns w.trace))
    (cs := boot .client ++ [.deliver (message 1 3 4 [])] ++ go 2 2 ++ [.loop 2] ++ go 4 3 ++ [.sync 4 2] ++ go 2 6 ++
      [.deliver (message 1 4 3 [])] ++ go 2 2 ++ [.loop 2] ++ go 5 2 ++ [.sync 5 2] ++ go 2 3 ++ [.sync 2 0] ++ go 2 2 ++ go 0 1 ++ go 3 1 ++
      [.deliver (dataMsg₁ 7), .deliver (dataMsg₁ 8)] ++ go 2 2 ++ [.loop 2] ++ go 6 3 ++ [.sync 6 2] ++ go 7 2 ++ go 2 4 ++
      go 2 2 ++ [.loop 2] ++ go 8 3 ++ [.sync 8 2] ++ go 9 2 ++ go 2 4 ++ [.call .readPD] ++ go 10 3)
    (v := (false, true, true, true, [message 1 3 4 [], message 1 4 3 [], dataMsg₁ 7, dataMsg₁ 8], [⟨0, 0, 0, 0, 0, 0, [8]⟩],
      [.pd ⟨0, 0, 0, 0, 0, 0, [7]⟩])) (by kernel_rfl)
  simp only [Prod.mk.injEq] at h2
  obtain ⟨h2, h3, h4, h5, h6, h7, h8⟩ := h2
  refine ⟨w, h1, by decide, ⟨h2, ?_, by simpa using h3, ?_⟩, idleB_sound h5, h6, h7, h8⟩
  · rw [h6]
    intro i raw hi
    match i with
    | 0 => cases hi; exact (show meaning (message 1 3 4 []) = some .aspUpAck by kernel_rfl)
    | 1 => cases hi; exact (show meaning (message 1 4 3 []) = some .aspActiveAck by kernel_rfl)
    | 2 => cases hi; exact .inl ⟨⟨0, 0, 0, 0, 0, 0, [7]⟩, by kernel_rfl⟩
    | 3 => cases hi; exact .inl ⟨⟨0, 0, 0, 0, 0, 0, [8]⟩, by kernel_rfl⟩
    | i + 4 => simp at hi
  · intro x hx hu
    have := List.all_eq_true.mp h4 x hx
    simpa [hu] using this

end M3.Conn
