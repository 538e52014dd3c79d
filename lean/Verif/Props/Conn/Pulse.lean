import Verif.Lemmas.Conn.PulseRest
import Verif.Props.Conn.Session

/- A session with heartbeats that are answered: C95. -/

set_option autoImplicit false
set_option linter.unusedSimpArgs false

namespace M3.Conn

open Spec

/-- C95: with heartbeats on, too, while nothing goes wrong outside the library and each of its heartbeats is answered once, with its data
and after these were stored, the library does not panic and reports no error (so it refuses no Heartbeat Ack and no heartbeat expires), and the state
is the one that follows from the number of datagrams received, apart from the last one. -/
theorem c95_safe {E : Env} (hE : E.maxStream ≠ 0) {w : World} (h : Alone E w) (hu : Attended E.mode w) :
    w.sh.crashed = false ∧ complaints w.trace = [] ∧
    (w.sh.st = stageAt (receives w.trace).length ∨ w.sh.st = stageAt ((receives w.trace).length - 1)) := by
  obtain ⟨ss, hl, hi⟩ := Pulse.roles hE h hu
  refine ⟨hi.opens.crashed, ?_, hi.state⟩
  rw [complaints, List.filterMap_eq_nil_iff]
  intro x hx
  have := hi.quiet x hx
  obtain ⟨j, g, o, r⟩ := x
  cases o <;> first | rfl | exact (this _ rfl).elim

/-- C95: the library sends the next heartbeat only after the last one was answered: the heartbeats whose data were stored are as many as
the answers received, or one more, for which it is waiting. -/
theorem c95_count {E : Env} (hE : E.maxStream ≠ 0) {w : World} (h : Alone E w) (hu : Attended E.mode w) :
    stores w.trace = (receives w.trace).countP (fun raw => meaning raw = some .heartbeatAck) + if awaiting w.trace then 1 else 0 := by
  obtain ⟨ss, hl, hi⟩ := Pulse.roles hE h hu
  exact hi.count

/-- C95: the library does not get stuck. When its goroutines have nothing left to do, every datagram that arrived has been read, the state is the one
that follows from their number, nobody holds the lock, and if there were two, `Dial` or `Accept` has returned the connection. All handlers have
ended, unless the queue of 65535 payloads is full. -/
theorem c95_rest {E : Env} (hE : E.maxStream ≠ 0) {w : World} (h : Alone E w) (hu : Attended E.mode w) (hr : Idle E w) :
    w.sh.inbox = [] ∧ w.sh.st = stageAt (receives w.trace).length ∧ w.sh.locked = false ∧
    (2 ≤ (receives w.trace).length → .conn ∈ w.openings) ∧ (Settled w ∨ 65535 ≤ w.sh.dataQ.length) := by
  obtain ⟨ss, hl, hi⟩ := Pulse.roles hE h hu
  obtain ⟨i, hs, hin⟩ := Pulse.rest h.reachable hl hi hr
  obtain ⟨h1, h2, h3⟩ := (show _ ∧ _ ∧ _ from hi.fact i _ hs)
  have hc := hi.opens.crashed
  refine ⟨hin, h1, h2, fun hn => ?_, ?_⟩
  · rcases hi.conn with ⟨j, s, hj, ho⟩ | ⟨x, hx, hx'⟩
    · have hm := hi.main
      rw [h3, decide_eq_true hn] at hm
      obtain ⟨⟨g, e, p⟩, ht⟩ := getElem?_some_of_length hl.1.symm hj
      cases s <;> first | (cases ho; done) | skip
      · have := tot_ge Pulse.mainN hj
        rw [hm] at this
        simp [Pulse.mainN] at this
      · rcases Pulse.pending h.reachable hl ht hj (fun h => h) with ⟨o, k, rfl, hf, hk⟩ | ⟨g', -, h | h⟩
        · obtain rfl : o = .opened .conn := hk
          exact (Calm.no_run hr hc ht .opened rfl (Pulse.not_user hf (by simp) (by simp) (by simp))).elim
        · cases h
        · cases h
    · exact List.mem_filterMap.mpr ⟨x, hx, by rw [hx']; rfl⟩
  · by_cases hq : 65535 ≤ w.sh.dataQ.length
    · exact .inr hq
    refine .inl fun t ht o k hp => ?_
    obtain ⟨j, htj⟩ := List.getElem?_of_mem ht
    obtain ⟨s, hj⟩ := getElem?_some_of_length hl.1 htj
    obtain ⟨g, e, p⟩ := t
    simp only at hp
    subst hp
    obtain ⟨hf, hok⟩ := (hl.2 j _ s htj hj).1
    have hF := hi.fact j s hj
    have htok : s ≠ .ready → s.tok = false := fun hne => by
      refine Pulse.tok_zero hi.tok rfl ?_ hs rfl hj
      rintro rfl
      rw [hs] at hj; cases hj; exact hne rfl
    have hd : s ≠ .dat := by
      rintro rfl
      have hg := Pulse.not_user hf (by simp) (by simp) (by simp)
      cases o <;> first | (cases hok; done) | skip
      · exact Calm.no_run hr hc htj (.state h2) rfl hg
      · exact Calm.no_run hr hc htj (.sendData hi.opens.data (by unfold dataCap; omega)) rfl hg
    refine ⟨?_, ?_, ?_⟩
    · rintro b rfl
      cases s <;> simp only [Pulse.Fits, reduceCtorEq, or_self, exists_false, false_and] at hf <;> first | exact hF.elim | skip
      all_goals exact absurd (htok (by simp)) (by simp [Pulse.G.tok])
    · rintro m rfl
      cases s <;> simp only [Pulse.Fits, reduceCtorEq] at hf <;> first | exact hF.elim | skip
      exact hd rfl
    · rintro b rfl
      cases s <;> first | exact hF.elim | (cases hok; done) | skip
      · obtain ⟨-, m, h, -⟩ := hok; cases h
      · exact absurd (htok (by simp)) (by simp [Pulse.G.tok])

/-- C95: and the heartbeats go on: with heartbeats on, once the goroutine that sends them has been woken, the library comes to rest only to wait
for the answer to a heartbeat. -/
theorem c95_beats {E : Env} (hE : E.maxStream ≠ 0) {w : World} (h : Alone E w) (hu : Attended E.mode w) (hr : Idle E w)
    (he : E.hb.enabled = true) (hw : ∃ x ∈ w.trace, x.ev.op = .waitLeave) : awaiting w.trace = true := by
  obtain ⟨ss, hl, hi⟩ := Pulse.roles hE h hu
  obtain ⟨i, hs, -⟩ := Pulse.rest h.reachable hl hi hr
  have hc := hi.opens.crashed
  have hz : tot Pulse.napN ss = 0 := by
    rcases hi.nap with h | h
    · obtain ⟨x, hx, hx'⟩ := hw
      exact (h x hx hx').elim
    · exact h
  obtain ⟨j, s, hj, hb⟩ := Pulse.exists_role (n := 0) hi.beat
  have hn := tot_zero Pulse.napN hz hj
  obtain ⟨⟨g, e, p⟩, ht⟩ := getElem?_some_of_length hl.1.symm hj
  have hp := hi.pulse
  have hak : tot Pulse.ackN ss = 0 := by
    refine Keep.tot_zero_of fun t ht => ?_
    obtain ⟨k, hk⟩ := List.getElem?_of_mem ht
    by_cases hik : i = k
    · subst hik
      rw [hs] at hk; cases hk; rfl
    · have := Pulse.tok_zero hi.tok rfl hik hs rfl hk
      cases t <;> first | rfl | cases this
  have hpu : s = .pulse := by
    cases s <;> first | rfl | exact absurd rfl hb | cases hn | skip
    all_goals
      exfalso
      rcases Pulse.pending h.reachable hl ht hj (by first | exact id | (show ¬ E.hb.enabled = false; simp [he])) with ⟨o, k, rfl, hf, hok⟩ | ⟨g', rfl, -⟩
      · have hg := Pulse.not_user hf (by simp) (by simp) (by simp)
        cases o <;> first | (cases hok; done) | skip
        all_goals first
          | exact Calm.no_run hr hc ht .info rfl hg
          | exact Calm.no_run hr hc ht (.write (n := 0) hi.opens.sctp) rfl hg
          | exact Calm.no_run hr hc ht .sleepElapsed rfl hg
          | exact Calm.no_run hr hc ht .setBeat rfl hg
          | exact Calm.no_run hr hc ht (.rand (b := List.replicate 128 0) (by simp)) rfl hg
      · exact Calm.no_loop hr hc ht
  subst hpu
  have := tot_ge Pulse.pulseN hj
  simp only [Pulse.pulseN] at this
  have ha : Pulse.aw w.trace ≠ 0 := by omega
  cases hx : awaiting w.trace with
  | true => rfl
  | false => simp [Pulse.aw, hx] at ha

open Classical in
/-- C95: nothing is lost: at rest every payload received has been taken by a reader or is in the queue. -/
theorem c95_delivered {E : Env} (hE : E.maxStream ≠ 0) {w : World} (h : Alone E w) (hu : Attended E.mode w) (hr : Idle E w)
    (hq : w.sh.dataQ.length < 65535) (P : ProtocolDataPayload → Prop) :
    (takes w.trace).countP (fun x => ∃ pd, x = some pd ∧ P pd) + w.sh.dataQ.countP (fun pd => P pd) =
      (receives w.trace).countP (fun raw => ∃ pd, carries raw pd ∧ P pd) := by
  refine c83_received h.reachable hu.ctx ?_ ?_ P
  · rcases (c95_rest hE h hu hr).2.2.2.2 with h | h
    · exact h
    · omega
  · rw [(c95_safe hE h hu).2.1]; exact fun _ h => by cases h

/-- Can be evaluated: every goroutine has ended, or waits for a datagram, to be woken or for an acknowledgement. -/
def waitB (w : World) : Bool :=
  !w.sh.ctxDone && !w.sh.ackClosed && w.threads.all fun t => match t.prog with
    | .ret none => true
    | .op (.read _) _ => w.sh.inbox.isEmpty
    | .op .waitLeave _ => w.sh.cond ≠ .woken
    | .op .ackSelect _ => true
    | _ => false

theorem waitB_sound {E : Env} {w : World} (h : waitB w = true) : Idle E w := by
  simp only [waitB, Bool.and_eq_true, Bool.not_eq_true'] at h
  obtain ⟨⟨hctx, hack⟩, h⟩ := h
  have key : ∀ {i : Nat} {g : Gor} {e : List Ev} {p : Prog (Option Gor)}, w.threads[i]? = some ⟨g, e, p⟩ →
      p = .ret none ∨ (∃ n k, p = .op (.read n) k ∧ w.sh.inbox = []) ∨ (∃ k, p = .op .waitLeave k ∧ w.sh.cond ≠ .woken) ∨ ∃ k, p = .op .ackSelect k := by
    intro i g e p ht
    have := List.all_eq_true.mp h _ (List.mem_of_getElem? ht)
    simp only at this
    split at this
    · exact .inl rfl
    · exact .inr (.inl ⟨_, _, rfl, by simpa using this⟩)
    · exact .inr (.inr (.inl ⟨_, rfl, by simpa using this⟩))
    · exact .inr (.inr (.inr ⟨_, rfl⟩))
    · cases this
  intro w' hw
  exfalso
  cases hw with
  | run i g e o k r hc ht hx hm =>
    rcases key ht with h | ⟨n, k', h, h'⟩ | ⟨k', h, h'⟩ | ⟨k', h⟩
    · cases h
    · cases h
      cases hx with
      | read _ h1 _ => rw [h'] at h1; cases h1
      | readPart _ h1 _ => rw [h'] at h1; cases h1
      | readFail => cases hm
    · cases h
      cases hx with
      | waitLeave h1 => exact h' h1
    · cases h
      cases hx with
      | ackCtx h1 => rw [hctx] at h1; cases h1
      | ackClosed h1 => rw [hack] at h1; cases h1
      | ackTimer => simp [Ev.calm] at hm
  | sync i j gi gj hi hj oi oj ki kj ri rj hc hij hti htj hx =>
    rcases key hti with h | ⟨n, k', h, h'⟩ | ⟨k', h, h'⟩ | ⟨k', h⟩ <;> cases h <;> cases hx
  | loop i g g' e hc ht =>
    rcases key ht with h | ⟨n, k', h, h'⟩ | ⟨k', h, h'⟩ | ⟨k', h⟩ <;> cases h
  | crash i g e o k hc ht hx =>
    rcases key ht with h | ⟨n, k', h, h'⟩ | ⟨k', h, h'⟩ | ⟨k', h⟩ <;> cases h <;> cases hx

/-- Can be evaluated: each Heartbeat Ack was read while one was awaited, and has the data drawn last. -/
def inStepB (l : List Rec) : Bool :=
  (List.range l.length).all fun i => match l[i]? with
    | some ⟨_, _, ⟨.read _, some raw⟩⟩ => decide (meaning raw ≠ some .heartbeatAck) ||
        awaiting (l.take i) && (drawn (l.take i)).isSome && decide (ackData raw = drawn (l.take i))
    | _ => true

theorem inStepB_sound {l : List Rec} (h : inStepB l = true) : InStep l := by
  rintro l₁ ⟨i, g, o, r⟩ l₂ n raw rfl hx hm
  cases hx
  have := List.all_eq_true.mp h l₁.length (List.mem_range.mpr (by simp))
  simp only [List.getElem?_append_right (Nat.le_refl _), Nat.sub_self, List.getElem?_cons_zero, List.take_left', hm, ne_eq, not_true_eq_false,
    decide_false, Bool.false_or, Bool.and_eq_true, decide_eq_true_eq] at this
  obtain ⟨⟨h1, h2⟩, h3⟩ := this
  obtain ⟨d, hd⟩ := Option.isSome_iff_exists.mp h2
  exact ⟨h1, d, hd, by rw [h3, hd]⟩

/-- A client with heartbeats on receives ASP Up Ack and ASP Active Ack, sends a heartbeat, receives the answer, receives a DATA message, and sends a second
heartbeat, whose answer it awaits. All premises hold.
For `c95_count`, `c95_beats` and the other theorems on C95. -/
example : ∃ w, Alone E₁ w ∧ E₁.maxStream ≠ 0 ∧ Attended E₁.mode w ∧ Idle E₁ w ∧ E₁.hb.enabled = true ∧ (∃ x ∈ w.trace, x.ev.op = .waitLeave) ∧
    receives w.trace = [message 1 3 4 [], message 1 4 3 [], message 1 3 6 [tlv 9 sevens], dataMsg₁ 7] ∧
    stores w.trace = 2 ∧ w.sh.dataQ = [⟨0, 0, 0, 0, 0, 0, [7]⟩] := by
  have h : (play (body' E₁) (M3.Conn.init E₁) (go 2 1 ++ go 3 1 ++ (boot .client).drop 1 ++ [.deliver (message 1 3 4 [])] ++ go 2 2 ++ [.loop 2] ++ go 4 3 ++ [.sync 4 2] ++ go 2 6 ++
      [.deliver (message 1 4 3 [])] ++ go 2 2 ++ [.loop 2] ++ go 5 2 ++ [.sync 5 2] ++ go 2 3 ++ [.sync 2 0] ++ go 2 2 ++ go 0 1 ++ go 3 1 ++ beat sevens ++
      [.deliver (message 1 3 6 [tlv 9 sevens])] ++ go 2 2 ++ [.loop 2] ++ go 6 3 ++ [.sync 6 3] ++ go 6 1 ++ [.sync 6 2] ++ go 2 4 ++ [.deliver (dataMsg₁ 7)] ++
      go 2 2 ++ [.loop 2] ++ go 7 3 ++ [.sync 7 2] ++ go 8 2 ++ go 2 4 ++ go 3 1 ++ beat (List.replicate 128 8))).map
      (fun w => (w.sh.ctxDone, w.trace.all (fun x => x.gor ≠ .api .close),
      w.trace.all (fun x => ofUser x.gor || x.ev.calm), waitB w, inStepB w.trace, w.trace.any (fun x => x.ev.op = .waitLeave), receives w.trace,
      stores w.trace, w.sh.dataQ)) = some
    (false, true, true, true, true, true, [message 1 3 4 [], message 1 4 3 [], message 1 3 6 [tlv 9 sevens], dataMsg₁ 7], 2, [⟨0, 0, 0, 0, 0, 0, [7]⟩]) := by kernel_rfl
  obtain ⟨w, h1, h2⟩ := reach_alone h (by rfl)
  simp only [Prod.mk.injEq] at h2
  obtain ⟨h2, h3, h4, h5, h6, h7, h8, h9, h10⟩ := h2
  refine ⟨w, h1, by decide, ⟨h2, ?_, inStepB_sound h6, by simpa using h3, ?_⟩, waitB_sound h5, rfl, by simpa using h7, h8, h9, h10⟩
  · rw [h8]
    intro i raw hi
    match i with
    | 0 => cases hi; exact .inl (show meaning (message 1 3 4 []) = some .aspUpAck by kernel_rfl)
    | 1 => cases hi; exact .inl (show meaning (message 1 4 3 []) = some .aspActiveAck by kernel_rfl)
    | 2 => cases hi; exact .inr ⟨Nat.le_refl _, by kernel_rfl⟩
    | 3 => cases hi; exact .inl (.inl ⟨⟨0, 0, 0, 0, 0, 0, [7]⟩, by kernel_rfl⟩)
    | i + 4 => simp at hi
  · intro x hx hu
    have := List.all_eq_true.mp h4 x hx
    simpa [hu] using this

end M3.Conn
