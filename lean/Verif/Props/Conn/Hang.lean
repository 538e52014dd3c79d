import Verif.Lemmas.Conn.Lock
import Verif.Lemmas.Conn.Role
import Verif.Props.Conn.Crash

/- A second activation blocks the connection for ever: C54. -/

set_option autoImplicit false
set_option linter.unusedSimpArgs false

namespace M3.Spec

open M3.Conn

/-- `Dial` or `Accept` is no longer waiting for the connection to be established. -/
def decided (l : List Rec) : Prop := ∃ x ∈ l, x.ev.op = .estSelect

/-- What can still be done when the connection is blocked: everything but looking at or changing the state, reading, and
reporting to the monitor. -/
def free : Op → Bool
  | .state | .lock | .unlock | .getSt | .putSt _ | .closeEst | .closeAck | .closeData | .read _ | .monSelect | .sendState _ | .sendErr _
  | .sendEst | .estSelect => false
  | _ => true

/-- Calls that need the state. -/
def needsState : Api → Bool
  | .writeSignal _ | .streamID | .maxMessageStreamID => false
  | _ => true

end M3.Spec

namespace M3.Conn

open Spec

theorem decided.mono {l : List Rec} (xs : List Rec) (h : decided l) : decided (l ++ xs) := by
  obtain ⟨x, h1, h2⟩ := h
  exact ⟨x, List.mem_append_left _ h1, h2⟩

/-- A connection in the hands of the user. -/
theorem handed_decided {E : Env} {w : World} (h : Reachable E w) (hh : w.sh.handed = true) : decided w.trace := by
  rw [Reachable] at h
  generalize hi : init E = w₀ at h
  induction h with
  | refl => subst hi; cases hh
  | tail _ hs ih =>
    cases hs with
    | env _ he => cases he <;> exact ih hh
    | call => exact ih hh
    | run i g hist o k r _ _ hx => exact decided.mono _ (ih (by cases hx <;> exact hh))
    | sync i j gi gj hi' hj' oi oj ki kj ri rj _ _ _ _ hx =>
      cases hx with
      | est => exact ⟨⟨j, gj, .estSelect, .ok⟩, by simp, rfl⟩
      | _ => exact decided.mono _ (ih hh)
    | loop => exact ih hh
    | crash => exact ih hh

theorem not_waiting {E : Env} {w : World} (h : Reachable E w) (hd : decided w.trace) {i : Nat} {g : Gor} {hist : List Ev}
    {k : Resp .estSelect → Prog (Option Gor)} (ht : w.threads[i]? = some ⟨g, hist, .op .estSelect k⟩) : False := by
  obtain ⟨x, hx, ho⟩ := hd
  have h1 := Role.reach h x hx
  rw [ho] at h1
  have h2 := Role.pending h ht
  have hg : g = .main := by simpa [Role.role] using h2.2
  have hg' : x.gor = .main := by simpa [Role.role] using h1.2
  subst hg
  rw [hg'] at h1
  have hi : i = 0 := h2.1.1.mp rfl
  have hi' : x.tid = 0 := h1.1.1.mp rfl
  obtain ⟨h3, h4⟩ := Follows.once h ht rfl rfl
  have h3 : Path (.op .estSelect _) hist (.op .estSelect k) := h3
  have hm : x ∈ w.of i := List.mem_filter.mpr ⟨hx, by simp [hi, hi']⟩
  rcases Path.op_iff.mp h3 with ⟨h3, -⟩ | ⟨r, h', -, h3⟩
  · rw [h4] at hm; simp only at hm; rw [h3] at hm; cases hm
  · cases r with
    | ok =>
      have h3 : Path (.op (.opened .conn) fun _ => .ret none) h' _ := h3
      rcases Path.op_iff.mp h3 with ⟨-, h3⟩ | ⟨r, h', -, h3⟩
      · cases h3
      · cases h3
    | closed =>
      have h3 : Path (.op .sctpClose fun _ => .op (.opened .failedToEstablish) fun _ => .ret none) h' _ := h3
      rcases Path.op_iff.mp h3 with ⟨-, h3⟩ | ⟨r, h', -, h3⟩
      · cases h3
      · rcases Path.op_iff.mp h3 with ⟨-, h3⟩ | ⟨r, h', -, h3⟩
        · cases h3
        · cases h3
    | timeout =>
      have h3 : Path (.op .sctpClose fun _ => .op (.opened .timeout) fun _ => .ret none) h' _ := h3
      rcases Path.op_iff.mp h3 with ⟨-, h3⟩ | ⟨r, h', -, h3⟩
      · cases h3
      · rcases Path.op_iff.mp h3 with ⟨-, h3⟩ | ⟨r, h', -, h3⟩
        · cases h3
        · cases h3

/-- A change to AspActive leaves the monitor about to notify `Dial` / `Accept`. -/
theorem notifying {E : Env} {w w' : World} (h : Reachable E w) (hs : Step E w w') (h1 : w.sh.st ≠ .active) (h2 : w'.sh.st = .active) :
    ∃ hist k, w'.threads[2]? = some ⟨.monitorLoop, hist, .op .sendEst k⟩ := by
  obtain ⟨ss, hl, hi⟩ := Lock.reach h
  cases hs with
  | env _ he => cases he <;> exact absurd h2 h1
  | call => exact absurd h2 h1
  | loop => exact absurd h2 h1
  | crash => exact absurd h2 h1
  | sync i j gi gj hi' hj' oi oj ki kj ri rj _ _ _ _ hx => cases hx <;> exact absurd h2 h1
  | run i g hist o k r _ ht hx =>
    cases hx with
    | @putSt x =>
      have h2 : x = .active := h2
      subst h2
      obtain ⟨s, hsi⟩ := getElem?_some_of_length hl.1 ht
      have hw := hl.2 i _ s ht hsi
      have hk := hi.known i s hsi
      obtain ⟨hot, y, hy⟩ : s.hot = true ∧ ∃ y, s.ph = .saw y := by
        rcases hw.1.1 with h | ⟨-, h⟩
        · exact h
        · cases h
      rw [hy] at hk
      have hk : y = w.sh.st := hk
      have hn : Lock.next s (.putSt .active) () = ⟨s.hot, .must⟩ := by
        simp only [Lock.next, hy, hk, ne_eq, h1, not_false_eq_true, and_self, if_true]
      have hw := hw.2 () trivial
      rw [Lock.D_next, hn] at hw
      have hr := Role.pending h ht
      have hg : g = .monitorLoop := by
        rcases (show g = .monitorLoop ∨ g = .api .close by simpa [Role.role] using hr.2) with h | h
        · exact h
        · subst h
          have := (hl.2 i _ s ht hsi).1.2.1 rfl
          rw [hot] at this; cases this
      subst hg
      have hi2 : i = 2 := hr.1.2.2.mp rfl
      subst hi2
      have hlt : 2 < w.threads.length := (List.getElem?_eq_some_iff.mp ht).1
      cases hp : k () with
      | ret r =>
        rw [hp] at hw
        cases r with
        | none => cases hw
        | some g' =>
          have hw : (⟨s.hot, .must⟩ : Lock.S) = Lock.born g' := hw
          have := Lock.born_out g'
          rw [← hw] at this; cases this
      | op o k' =>
        rw [hp] at hw
        have := hw.1.2.2 rfl
        subst this
        refine ⟨hist ++ [⟨.putSt .active, ()⟩], k', ?_⟩
        simp only [spawned, List.map_nil, List.append_nil]
        rw [List.getElem?_set_self hlt]
    | _ => exact absurd h2 h1

/-- The monitor is about to notify `Dial` / `Accept`, which does not wait any more. -/
structure Blocked (w : World) (hist : List Ev) (k : Resp .sendEst → Prog (Option Gor)) : Prop where
  at' : w.threads[2]? = some ⟨.monitorLoop, hist, .op .sendEst k⟩
  decided : decided w.trace

theorem Blocked.step {E : Env} {w w' : World} {hist : List Ev} {k : Resp .sendEst → Prog (Option Gor)} (h : Reachable E w)
    (hb : Blocked w hist k) (hs : Step E w w') :
    Blocked w' hist k ∧ w'.sh.st = w.sh.st ∧ ∃ l, w'.trace = w.trace ++ l ∧ ∀ x ∈ l, free x.ev.op = true := by
  obtain ⟨ht2, hd⟩ := hb
  have hlt : 2 < w.threads.length := (List.getElem?_eq_some_iff.mp ht2).1
  obtain ⟨ss, hl, hi⟩ := Lock.reach h
  obtain ⟨s2, hs2⟩ := getElem?_some_of_length hl.1 ht2
  have hm : s2.ph = .must := (hl.2 2 _ s2 ht2 hs2).1.1.2
  have hlock := hi.locked hs2 (by rw [hm]; simp)
  cases hs with
  | env _ he => cases he <;> exact ⟨⟨ht2, hd⟩, rfl, [], by simp, by simp⟩
  | call => exact ⟨⟨by simpa only [List.getElem?_append_left hlt] using ht2, hd⟩, rfl, [], by simp, by simp⟩
  | loop i g g' hist' _ ht =>
    have hne : i ≠ 2 := by rintro rfl; rw [ht2] at ht; cases ht
    exact ⟨⟨by simp only [List.getElem?_set_ne hne]; exact ht2, hd⟩, rfl, [], by simp, by simp⟩
  | crash => exact ⟨⟨ht2, hd⟩, rfl, [], by simp, by simp⟩
  | run i g hist' o k' r _ ht hx =>
    have hne : i ≠ 2 := by
      rintro rfl
      rw [ht2] at ht; cases ht
      cases hx
    obtain ⟨s, hsi⟩ := getElem?_some_of_length hl.1 ht
    have hout := hi.alone hs2 hsi hne (by rw [hm]; simp)
    have hok := (hl.2 i _ s ht hsi).1.1
    have hr := Role.pending h ht
    have hmon : g = .monitorLoop → False := by rintro rfl; exact hne (hr.1.2.2.mp rfl)
    have hkey : free o = true := by
      cases o with
      | state => cases hx with | state h => rw [hlock] at h; cases h
      | lock => cases hx with | lock h => rw [hlock] at h; cases h
      | unlock => have : Lock.unlocks s := hok; simp [Lock.unlocks, hout] at this
      | getSt => have : s.ph = .held := hok; rw [hout] at this; cases this
      | putSt x =>
        rcases hok with ⟨-, y, h⟩ | ⟨h, -⟩ <;> rw [hout] at h <;> cases h
      | closeEst => obtain ⟨y, h, -⟩ := hok; rw [hout] at h; cases h
      | closeAck => have : s.ph = .est := hok; rw [hout] at this; cases this
      | closeData => have : s.ph = .ack := hok; rw [hout] at this; cases this
      | read n => exact (hmon (by simpa [Role.role] using hr.2)).elim
      | monSelect => exact (hmon (by simpa [Role.role] using hr.2)).elim
      | sendEst => exact (hmon (by simpa [Role.role] using hr.2)).elim
      | estSelect => exact (not_waiting h hd ht).elim
      | sendState => cases hx
      | sendErr => cases hx
      | _ => rfl
    refine ⟨⟨?_, decided.mono _ hd⟩, ?_, _, rfl, ?_⟩
    · rw [List.getElem?_append_left (by simpa using hlt), List.getElem?_set_ne hne]; exact ht2
    · cases hx <;> first | rfl | cases hkey
    · intro x hx; cases List.mem_singleton.mp hx; exact hkey
  | sync i j gi gj hi' hj' oi oj ki kj ri rj _ hij hti htj hx =>
    have mon : ∀ {j : Nat} {gj : Gor} {hj' : List Ev} {kj : Resp .monSelect → Prog (Option Gor)}, w.threads[j]? = some ⟨gj, hj', .op .monSelect kj⟩ → False := by
      intro j gj hj' kj htj
      have hr := Role.pending h htj
      have hg : gj = .monitorLoop := by simpa [Role.role] using hr.2
      subst hg
      have : j = 2 := hr.1.2.2.mp rfl
      subst this
      rw [ht2] at htj; cases htj
    cases hx with
    | state => exact (mon htj).elim
    | err => exact (mon htj).elim
    | est => exact (not_waiting h hd htj).elim
    | ack =>
      have hi2 : i ≠ 2 := by rintro rfl; rw [ht2] at hti; cases hti
      have hj2 : j ≠ 2 := by rintro rfl; rw [ht2] at htj; cases htj
      refine ⟨⟨?_, decided.mono _ hd⟩, rfl, _, rfl, ?_⟩
      · rw [List.getElem?_set_ne hj2, List.getElem?_set_ne hi2]; exact ht2
      · intro x hx
        simp only [List.mem_cons, List.not_mem_nil, or_false] at hx
        rcases hx with rfl | rfl <;> rfl

theorem Blocked.steps {E : Env} {w w' : World} {hist : List Ev} {k : Resp .sendEst → Prog (Option Gor)} (h : Reachable E w)
    (hb : Blocked w hist k) (hs : Steps E w w') :
    Blocked w' hist k ∧ w'.sh.st = w.sh.st ∧ ∃ l, w'.trace = w.trace ++ l ∧ ∀ x ∈ l, free x.ev.op = true := by
  induction hs with
  | refl => exact ⟨hb, rfl, [], by simp, by simp⟩
  | tail h1 hs ih =>
    obtain ⟨i1, i2, l, i3, i4⟩ := ih
    obtain ⟨j1, j2, l', j3, j4⟩ := i1.step (Steps.trans h h1) hs
    refine ⟨j1, j2.trans i2, l ++ l', by rw [j3, i3, List.append_assoc], fun x hx => ?_⟩
    rcases List.mem_append.mp hx with hx | hx
    · exact i4 x hx
    · exact j4 x hx

/-- C54: if the state changes to AspActive after `Dial` / `Accept` stopped waiting, then from that moment on the state is AspActive,
nothing is received, nothing is reported, nobody can look at the state or lock it, and the connection cannot be closed. -/
theorem c54_blocked {E : Env} {w₁ w₂ w : World} (h : Reachable E w₁) (hd : decided w₁.trace) (hs : Step E w₁ w₂)
    (h1 : w₁.sh.st ≠ .active) (h2 : w₂.sh.st = .active) (h3 : Steps E w₂ w) :
    w.sh.st = .active ∧ ∃ l, w.trace = w₂.trace ++ l ∧ ∀ x ∈ l, free x.ev.op = true := by
  obtain ⟨hist, k, ht⟩ := notifying h hs h1 h2
  obtain ⟨l, hl⟩ := hs.trace
  obtain ⟨-, h4, h5⟩ := Blocked.steps (.tail h hs) ⟨ht, hl ▸ decided.mono l hd⟩ h3
  exact ⟨h4.trans h2, h5⟩

theorem needsState_wp (E : Env) {c : Api} (hc : needsState c = true) :
    WP (Hist (Hist.Call fun s _ => ∃ e ∈ s, e.op = .state ∨ e.op = .lock)) (.api c) (fun _ _ => True) [] (body E (.api c)) := by
  cases c <;> simp only [needsState, Bool.false_eq_true] at hc <;>
    wp_code [Hist.ok_eq, Hist.may_eq, Hist.next_eq, Hist.Call, List.nil_append, List.append_assoc, List.cons_append] <;>
    simp [returned?]

/-- C54: from that moment on no call of `Read`, `ReadPD`, `Write`, `WriteToStream`, `WritePD`, `WritePDToStream`, `State` or `Close`
returns, unless it had looked at the state, or locked it, before. -/
theorem c54_hang {E : Env} {w₁ w₂ w : World} (h : Reachable E w₁) (hd : decided w₁.trace) (hs : Step E w₁ w₂)
    (h1 : w₁.sh.st ≠ .active) (h2 : w₂.sh.st = .active) (h3 : Steps E w₂ w) {i : Nat} {t : Thread} (ht : w.threads[i]? = some t)
    {c : Api} (hc : t.gor = .api c) (hn : needsState c = true) (hi : ∀ x ∈ w₂.of i, x.ev.op ≠ .state ∧ x.ev.op ≠ .lock) :
    returns (w.of i) = [] := by
  obtain ⟨-, l, hl, hf⟩ := c54_blocked h hd hs h1 h2 h3
  cases hr : returns (w.of i) with
  | nil => rfl
  | cons res rs =>
    obtain ⟨l', h4, e, he, h5⟩ := Hist.call (Steps.trans (.tail h hs) h3) ht hc (needsState_wp E hn)
      (show res ∈ returns (w.of i) by rw [hr]; exact .head _)
    obtain ⟨x, hx, rfl⟩ := List.mem_map.mp he
    have hm : x ∈ w.of i := by rw [h4]; exact List.mem_append_left _ hx
    rw [World.of, hl, List.filter_append] at hm
    rcases List.mem_append.mp hm with hm | hm
    · rcases h5 with h5 | h5
      · exact absurd h5 (hi x hm).1
      · exact absurd h5 (hi x hm).2
    · have := hf x (List.mem_filter.mp hm).1
      rcases h5 with h5 | h5 <;> rw [h5] at this <;> cases this

/-- C54: in particular no such call returns that is made after that moment. -/
theorem c54_later {E : Env} {w₁ w₂ w : World} (h : Reachable E w₁) (hd : decided w₁.trace) (hs : Step E w₁ w₂)
    (h1 : w₁.sh.st ≠ .active) (h2 : w₂.sh.st = .active) (h3 : Steps E w₂ w) {i : Nat} {t : Thread} (ht : w.threads[i]? = some t)
    {c : Api} (hc : t.gor = .api c) (hn : needsState c = true) (hi : w₂.threads.length ≤ i) : returns (w.of i) = [] := by
  refine c54_hang h hd hs h1 h2 h3 ht hc hn fun x hx => ?_
  have h4 := (Follows.reach (.tail h hs)).1 x (List.mem_filter.mp hx).1
  have h5 : x.tid = i := by simpa using (List.mem_filter.mp hx).2
  omega

/-- C54: whatever the configuration and the mode, a connection that was established, left AspActive and enters it again is in this
situation; `State` and `Close` were called and hang. -/
theorem c54_reachable (E : Env) : ∃ w₁ w₂ w, Reachable E w₁ ∧ w₁.sh.handed = true ∧ Step E w₁ w₂ ∧ w₁.sh.st ≠ .active ∧
    w₂.sh.st = .active ∧ Steps E w₂ w ∧ receives w.trace = [ackMsg, inactiveAck, ackMsg] ∧
      (w.threads.drop w₂.threads.length).map Thread.gor = [.api .state, .api .close] := by
  have h : ∃ w₁ w₂ w, Reachable E w₁ ∧ Step E w₁ w₂ ∧ Steps E w₂ w ∧
      (w₁.sh.handed, w₁.sh.st, w₂.sh.st, receives w.trace, (w.threads.drop w₂.threads.length).map Thread.gor) =
      (true, .inactive, .active, [ackMsg, inactiveAck, ackMsg], [.api .state, .api .close]) := by
    obtain ⟨mode, cfg, hb, ms⟩ := E
    refine reach_step (cs := opening mode ++ [.deliver inactiveAck] ++ go 2 2 ++ [.loop 2] ++ go 5 2 ++ [.sync 5 2] ++
      (match mode with
      | .client => go 2 6
      | .server => go 2 4) ++ [.deliver ackMsg] ++ go 2 2 ++ [.loop 2] ++ go 6 2 ++ [.sync 6 2] ++ go 2 2)
      (c := .run 2 (.std 0)) (ds := [.call .state, .call .close])
      (f := fun w₁ w₂ w => (w₁.sh.handed, w₁.sh.st, w₂.sh.st, receives w.trace, (w.threads.drop w₂.threads.length).map Thread.gor)) ?_
    cases mode <;> kernel_rfl
  obtain ⟨w₁, w₂, w, h1, h2, h3, h4⟩ := h
  simp only [Prod.mk.injEq] at h4
  obtain ⟨h4, h5, h6, h7, h8⟩ := h4
  exact ⟨w₁, w₂, w, h1, h4, h2, by rw [h5]; simp, h6, h3, h7, h8⟩

/-- The calls of `c54_reachable` meet the hypotheses of `c54_later`. -/
example : ∃ w₁ w₂ w, Reachable E₀ w₁ ∧ decided w₁.trace ∧ Step E₀ w₁ w₂ ∧ w₁.sh.st ≠ .active ∧ w₂.sh.st = .active ∧ Steps E₀ w₂ w ∧
    ∃ (i : Nat) (t : Thread), w.threads[i]? = some t ∧ t.gor = .api .close ∧ needsState .close = true ∧ w₂.threads.length ≤ i := by
  obtain ⟨w₁, w₂, w, h1, h2, h3, h4, h5, h6, -, h7⟩ := c54_reachable E₀
  have h8 := congrArg (fun l => l[1]?) h7
  simp only [List.getElem?_map, List.getElem?_drop, List.getElem?_cons_succ, List.getElem?_cons_zero, Option.map_eq_some_iff] at h8
  obtain ⟨t, ht, hg⟩ := h8
  exact ⟨w₁, w₂, w, h1, handed_decided h1 h2, h3, h4, h5, h6, _, t, ht, hg, rfl, by omega⟩

end M3.Conn
