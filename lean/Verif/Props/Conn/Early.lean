import Verif.Props.Conn.Remains
import Verif.Props.Conn.Retired

/- What `Dial` and `Accept` report if the connection fails before it is established: C122. -/

set_option autoImplicit false
set_option linter.unusedSimpArgs false

namespace M3.Spec

/-- A received datagram asks for a state above AspDown. -/
def raises (raw : List UInt8) : Prop := effect raw = some .inactive ∨ effect raw = some .active

end M3.Spec

namespace M3.Conn

open Spec

namespace Early

theorem first_split {α : Type} {P : α → Prop} : ∀ {l : List α}, (∃ x ∈ l, P x) → ∃ l₁ x l₂, l = l₁ ++ x :: l₂ ∧ P x ∧ ∀ y ∈ l₁, ¬ P y
  | [], h => by obtain ⟨x, hx, -⟩ := h; cases hx
  | a :: l, h => by
    by_cases ha : P a
    · exact ⟨[], a, l, rfl, ha, nofun⟩
    · obtain ⟨x, hx, hp⟩ := h
      rcases List.mem_cons.mp hx with rfl | hx
      · exact absurd hp ha
      · obtain ⟨l₁, y, l₂, rfl, h1, h2⟩ := first_split ⟨x, hx, hp⟩
        refine ⟨a :: l₁, y, l₂, rfl, h1, fun z hz => ?_⟩
        rcases List.mem_cons.mp hz with rfl | hz
        · exact ha
        · exact h2 z hz

theorem raised {rs : List Bytes} (h : stateAfter rs ≠ .down) : ∃ raw ∈ rs, raises raw := by
  have key : ∀ (rs : List Bytes) (s : St), (∀ raw ∈ rs, ¬ raises raw) → s = .down → rs.foldl (fun s raw => (effect raw).getD s) s = .down := by
    intro rs
    induction rs with
    | nil => intro s _ h; exact h
    | cons raw rs ih =>
      intro s hr hs
      refine ih _ (fun r hr' => hr r (.tail _ hr')) ?_
      have h1 := hr raw (.head _)
      show (effect raw).getD s = .down
      cases he : effect raw with
      | none => exact hs
      | some s' =>
        unfold effect at he
        cases hm : meaning raw with
        | none => rw [hm] at he; cases he
        | some k =>
          rw [hm] at he
          have he : commands k = some s' := he
          have he' : effect raw = commands k := by unfold effect; rw [hm]; rfl
          have h1 : ¬ (commands k = some .inactive ∨ commands k = some .active) := by rw [← he']; exact h1
          show s' = .down
          cases k <;> simp only [commands, Option.some.injEq, reduceCtorEq] at he h1 <;> first | exact he.symm | (exfalso; simp at h1)
  apply Classical.byContradiction
  intro hx
  exact h (key rs .down (fun raw hr h' => hx ⟨raw, hr, h'⟩) rfl)

theorem ok_handed {E : Env} {w : World} (h : Reachable E w) {x : Rec} (hx : x ∈ w.trace) (he : x.ev = ⟨.estSelect, .ok⟩) : w.sh.handed = true := by
  rw [Reachable] at h
  generalize hi : init E = w₀ at h
  induction h with
  | refl => subst hi; cases hx
  | @tail a b hab hs ih =>
    by_cases hx' : x ∈ a.trace
    · exact hs.handed (ih hx')
    · cases hs with
      | run i g h' o k r _ _ hxe =>
        rcases List.mem_append.mp hx with h1 | h1
        · exact absurd h1 hx'
        · simp only [List.mem_singleton] at h1
          subst h1
          simp only at he
          cases he
          cases hxe
      | sync i j gi gj hi hj oi oj ki kj ri rj _ _ _ _ hxe =>
        rcases List.mem_append.mp hx with h1 | h1
        · exact absurd h1 hx'
        · simp only [List.mem_cons, List.not_mem_nil, or_false] at h1
          rcases h1 with rfl | rfl <;> simp only at he <;> cases he <;> cases hxe <;> rfl
      | _ => exact absurd hx hx'

end Early

/-- C122: the channels of a connection are closed only after a datagram was received that asks for AspInactive or AspActive, by whomever. -/
theorem c122_closed {E : Env} {w : World} (h : Reachable E w) {x : Rec} (hx : x ∈ w.trace) (ho : x.ev.op = .closeEst) :
    ∃ raw ∈ receives w.trace, raises raw := by
  obtain ⟨l₁, ⟨tid, g, o, r⟩, l₂, hl, hp, hn⟩ := Early.first_split (P := fun x : Rec => x.ev.op = .closeEst) ⟨x, hx, ho⟩
  simp only at hp
  subst hp
  have up : ∃ raw ∈ receives l₁, raises raw := by
    rcases h.at hl with ⟨w₀, sh', k, hist, h₀, rfl, ht, he⟩ | ⟨w₀, sh', ⟨_, _, oy, ry⟩, h₀, ⟨rfl, hy⟩ | ⟨rfl, hy⟩⟩
    · obtain ⟨ss, hl', hi⟩ := Lock.reach h₀
      obtain ⟨s, hs⟩ := getElem?_some_of_length hl'.1 ht
      obtain ⟨y, h1, h2⟩ : ∃ y, s.ph = .saw y ∧ y ≠ .down := (wp_op.mp (hl'.2 _ _ s ht hs)).1.1
      have h3 := hi.known _ s hs
      rw [h1] at h3
      have h3 : y = w₀.sh.st := h3
      rcases c46_state h₀ hn with h4 | ⟨rs, raw, h4, h5⟩
      · exact Early.raised (by rw [← h4, ← h3]; exact h2)
      · obtain ⟨q, h6, h7⟩ := Early.raised (rs := rs) (by rw [← h5, ← h3]; exact h2)
        exact ⟨q, by rw [h4]; exact List.mem_append_left _ h6, h7⟩
    · cases hy
    · cases hy
  obtain ⟨raw, h1, h2⟩ := up
  exact ⟨raw, by rw [hl, Flow.receives_append]; exact List.mem_append_left _ h1, h2⟩

theorem Early.closed_raised {E : Env} {w : World} (h : Reachable E w) {x : Rec} (hm : x ∈ w.trace) (he : x.ev = ⟨.estSelect, .closed⟩)
    (hr : ∀ raw ∈ receives w.trace, ¬ raises raw) : False := by
  obtain ⟨l₁, l₂, hl⟩ := List.append_of_mem hm
  obtain ⟨tid, g, o, r⟩ := x
  simp only at he
  cases he
  rcases h.at hl with ⟨w₀, sh', k, hist, h₀, rfl, -, he⟩ | ⟨w₀, sh', ⟨_, _, oy, ry⟩, h₀, ⟨rfl, hy⟩ | ⟨rfl, hy⟩⟩
  · cases he with
    | estClosedRecv hc =>
      obtain ⟨ss, -, hi⟩ := Est.reach h₀
      obtain ⟨x, hx, ho⟩ := hi.closed hc
      obtain ⟨raw, a, b⟩ := c122_closed h₀ hx ho
      exact hr raw (by rw [hl, Flow.receives_append]; exact List.mem_append_left _ a) b
  · cases hy
  · cases hy

/-- C122: so if nothing of that kind has been received, `Dial` and `Accept` still wait or have given up after ten seconds, whatever happened: the
association may have broken, the context may have been cancelled, the connection may have been closed. -/
theorem c122_waits {E : Env} {w : World} (h : Reachable E w) (hr : ∀ raw ∈ receives w.trace, ¬ raises raw) :
    (∃ k, w.threads[0]? = some ⟨.main, [], .op .estSelect k⟩) ∨ ∃ x ∈ w.trace, x.ev = ⟨.estSelect, .timeout⟩ := by
  have h3 := Halt.third h
  obtain ⟨⟨g, e, p⟩, ht⟩ : ∃ t, w.threads[0]? = some t := ⟨_, List.getElem?_eq_getElem (by omega)⟩
  have hg : g = .main := by
    have := Halt.class_of h (by omega) ht
    cases g <;> simp [Role.cl] at this
    rfl
  subst hg
  obtain ⟨h1, h2⟩ := Follows.once h ht rfl rfl
  have h1 : Path (.op .estSelect _) e p := h1
  rcases Path.op_iff.mp h1 with ⟨rfl, rfl⟩ | ⟨r, e', rfl, -⟩
  · exact .inl ⟨_, ht⟩
  · have hm : (⟨0, .main, ⟨.estSelect, r⟩⟩ : Rec) ∈ w.trace := by
      have : (⟨0, .main, ⟨.estSelect, r⟩⟩ : Rec) ∈ w.of 0 := by rw [h2]; exact .head _
      exact (List.mem_filter.mp this).1
    cases r with
    | timeout => exact .inr ⟨_, hm, rfl⟩
    | ok =>
      exfalso
      obtain ⟨raw, a, b⟩ := (Active.reach h).2 (Early.ok_handed h hm rfl)
      exact hr raw a (.inr b)
    | closed =>
      exact (Early.closed_raised h hm rfl hr).elim

/-- C122: whatever `Dial` or `Accept` returns while nothing of that kind has been received, it is `ErrTimeout`, and after the ten seconds. -/
theorem c122_result {E : Env} {w : World} (h : Reachable E w) {l₁ l₂ : List Rec} {x : Rec} (hl : w.trace = l₁ ++ x :: l₂) {r : OpenRes}
    (hx : x.ev.op = .opened r) (hr : ∀ raw ∈ receives l₁, ¬ raises raw) : r = .timeout ∧ ∃ y ∈ l₁, y.ev = ⟨.estSelect, .timeout⟩ := by
  obtain ⟨tid, g, o, a⟩ := x
  simp only at hx
  subst hx
  rcases h.at hl with ⟨w₀, sh', k, hist, h₀, rfl, ht, -⟩ | ⟨w₀, sh', ⟨_, _, oy, ry⟩, h₀, ⟨rfl, hy⟩ | ⟨rfl, hy⟩⟩
  · have ht : w₀.threads[tid]? = some ⟨g, hist, .op (.opened r) k⟩ := ht
    obtain ⟨h1, h2⟩ := Role.pending h₀ ht
    have hg : g = .main := by simpa [Role.role] using h2
    subst hg
    obtain ⟨p1, p2⟩ := Follows.once h₀ ht rfl rfl
    have p1 : Path (.op .estSelect _) hist (.op (.opened r) k) := p1
    rcases Path.op_iff.mp p1 with ⟨-, p3⟩ | ⟨res, h', rfl, p3⟩
    · cases p3
    · have hm : (⟨tid, .main, ⟨.estSelect, res⟩⟩ : Rec) ∈ w₀.trace := by
        have : (⟨tid, .main, ⟨.estSelect, res⟩⟩ : Rec) ∈ w₀.of tid := by rw [p2]; exact .head _
        exact (List.mem_filter.mp this).1
      cases res with
      | timeout =>
        refine ⟨?_, _, hm, rfl⟩
        have p3 : Path (.op .sctpClose fun _ => .op (.opened .timeout) fun _ => .ret none) h' (.op (.opened r) k) := p3
        rcases Path.op_iff.mp p3 with ⟨-, p4⟩ | ⟨b, h'', -, p4⟩
        · cases p4
        · rcases Path.op_iff.mp p4 with ⟨-, p5⟩ | ⟨u, h3, -, p5⟩
          · cases p5; rfl
          · have := (Path.ret_iff.mp p5).2; cases this
      | ok =>
        exfalso
        obtain ⟨raw, a, b⟩ := (Active.reach h₀).2 (Early.ok_handed h₀ hm rfl)
        exact hr raw a (.inr b)
      | closed =>
        exfalso
        exact Early.closed_raised h₀ hm rfl hr
  · cases hy
  · cases hy

/-- The association cannot be read, or the context is cancelled before the monitor starts. -/
def Early.break (m : Mode) : Bool → List Choice
  | false => boot m ++ [.run 2 .fail] ++ go 2 5 ++ go 3 1
  | true => go 2 1 ++ [.loop 2, .cancel] ++ go 2 6 ++ go 3 1

/-- C122: nothing more is needed for it to take ten seconds, whatever the configuration: the association cannot be read, or the context is cancelled
right at the beginning. The monitor has closed the association and has returned, nothing happens any more by itself, and `Dial` or `Accept`
waits for its timer, after which it returns `ErrTimeout`. -/
theorem c122_occurs (E : Env) (cancelled : Bool) : ∃ w w', Reachable E w ∧ Halted E w ∧ Over w ∧ w.sh.ctxDone = cancelled ∧ receives w.trace = [] ∧
    (∃ k, w.threads[0]? = some ⟨.main, [], .op .estSelect k⟩) ∧ Steps E w w' ∧ (w'.of 0).map (fun x => x.ev.op) = [.estSelect, .sctpClose, .opened .timeout] := by
  have h : ((play (body' E) (init E) (Early.break E.mode cancelled)).bind fun w => (play (body' E) w ([.run 0 .timer] ++ go 0 2)).map fun w' =>
      (Halt.haltedB w, monEnded w, w.sh.sctpClosed, w.sh.locked, w.sh.ctxDone, receives w.trace, w.trace.any (fun x => x.ev.op == .estSelect),
        (w'.of 0).map fun x => x.ev.op)) = some (true, true, true, false, cancelled, [], false, [.estSelect, .sctpClose, .opened .timeout]) := by
    obtain ⟨mode, cfg, hb, ms⟩ := E
    cases mode <;> cases cancelled <;> kernel_rfl
  obtain ⟨w, w', hw, hs, he⟩ := reach_then h
  simp only [Prod.mk.injEq] at he
  obtain ⟨h1, h2, h3, h4, h5, h6, h7, h8⟩ := he
  refine ⟨w, w', hw, Halt.halted_of h1, ?_, h5, h6, ?_, hs, h8⟩
  · unfold monEnded at h2
    split at h2
    · rename_i g2 e2 ht2
      exact ⟨⟨g2, e2, ht2⟩, h3, h4⟩
    · cases h2
  · rcases c122_waits hw (by rw [h6]; simp) with hx | ⟨x, hx, he⟩
    · exact hx
    · have := List.any_eq_false.mp h7 x hx
      rw [he] at this
      exact absurd rfl this

/-- For `c122_closed`, and to compare: if ASP Up Ack has been received before the association breaks, `Dial` returns `ErrFailedToEstablish` without any timer. -/
example : ∃ w, Reachable E₀ w ∧ receives w.trace = [[1, 0, 3, 4, 0, 0, 0, 8]] ∧ raises [1, 0, 3, 4, 0, 0, 0, 8] ∧
    (∃ x ∈ w.trace, x.ev.op = .closeEst) ∧ (w.of 0).map (fun x => x.ev.op) = [.estSelect, .sctpClose, .opened .failedToEstablish] := by
  obtain ⟨w, h1, h2⟩ := reach_of (E := E₀)
    (f := fun w => (receives w.trace, w.trace.any (fun x => x.ev.op == .closeEst), (w.of 0).map (fun x => x.ev.op)))
    (cs := boot .client ++ [.deliver [1, 0, 3, 4, 0, 0, 0, 8]] ++ go 2 2 ++ [.loop 2] ++ go 4 3 ++ [.sync 4 2] ++ go 2 6 ++ [.run 2 .fail] ++ go 2 9 ++ [.run 0 .closed] ++ go 0 2)
    (v := ([[1, 0, 3, 4, 0, 0, 0, 8]], true, [.estSelect, .sctpClose, .opened .failedToEstablish])) (by kernel_rfl)
  simp only [Prod.mk.injEq] at h2
  obtain ⟨x, hx, ho⟩ := List.any_eq_true.mp h2.2.1
  exact ⟨w, h1, h2.1, .inl (by decide +kernel), ⟨x, hx, by simpa using ho⟩, h2.2.2⟩

end M3.Conn
