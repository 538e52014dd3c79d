import Verif.Props.Conn.Delivery
import Verif.Props.Conn.Calls
import Verif.Lemmas.Conn.Sched

/- Closing: C74, C66. -/

set_option autoImplicit false
set_option linter.unusedSimpArgs false

namespace M3.Conn

open Spec

theorem shut_closed {E : Env} {w : World} (h : Reachable E w) (hs : shut w.trace) : w.sh.sctpClosed = true := by
  induction h with
  | refl => obtain ⟨x, hx, -⟩ := hs; cases hx
  | tail _ hst ih =>
    have old : ∀ {l : List Rec} {y : Rec}, shut (l ++ [y]) → y.ev.op ≠ .sctpClose → shut l := by
      rintro l y ⟨x, hx, ho⟩ hy
      rcases List.mem_append.mp hx with hx | hx
      · exact ⟨x, hx, ho⟩
      · obtain rfl := List.mem_singleton.mp hx
        exact absurd ho hy
    cases hst with
    | env _ he => cases he <;> exact ih hs
    | call c => exact ih hs
    | loop => exact ih hs
    | crash => exact ih hs
    | run i g hist o k r _ ht hx =>
      cases hx <;> first
        | rfl
        | exact ih (old hs (by simp))
    | sync i j gi gj hi hj oi oj ki kj ri rj _ hij hti htj hx =>
      rw [show ∀ (l : List Rec) (x y : Rec), l ++ [x, y] = l ++ [x] ++ [y] by simp] at hs
      cases hx <;> exact ih (old (old hs (by simp)) (by simp))

/-- C74: once the library has closed the association, nothing is sent or received any more. -/
theorem c74_shut {E : Env} {w : World} (h : Reachable E w) {l₁ l₂ : List Rec} {x : Rec} (hl : w.trace = l₁ ++ x :: l₂)
    (hs : shut l₁) : received? x.ev = none ∧ ∀ s, sent? x.ev = some s → s.answer = none := by
  obtain ⟨i, g, o, r⟩ := x
  rcases h.at hl with ⟨w₀, sh', k, hist, h₀, rfl, ht, he⟩ | ⟨w₀, sh', ⟨_, _, oy, ry⟩, h₀, ⟨rfl, hy⟩ | ⟨rfl, hy⟩⟩
  · have hc := shut_closed h₀ hs
    simp only at he
    cases he <;> first
      | (refine ⟨rfl, ?_⟩; intro s hs; cases hs; done)
      | (rename_i h1; rw [hc] at h1; cases h1)
      | (rename_i h1 _ _; rw [hc] at h1; cases h1)
      | (refine ⟨rfl, ?_⟩; intro s hs; cases hs; rfl)
  · simp only at hy
    cases hy <;> exact ⟨rfl, nofun⟩
  · simp only at hy
    cases hy <;> exact ⟨rfl, nofun⟩

/-- A heartbeat after Close is not sent. -/
example : ∃ w, Reachable E₁ w ∧ ((sends w.trace).getLast?.map fun s => (octets s.bytes, s.answer)) = some ((3, 3), none) ∧
    shut w.trace :=
  let ⟨w, h, he⟩ := reach_of (E := E₁) (cs := openingBeat ++ go 3 1 ++ [.loop 3, .run 3 (.rand (List.replicate 128 0)), .call .close]
      ++ go 5 9 ++ go 3 1 ++ [.run 3 .fail])
    (f := fun w => ((sends w.trace).getLast?.map fun s => (octets s.bytes, s.answer), w.trace.any fun x => x.ev.op = .sctpClose))
    (v := (some ((3, 3), none), true)) (by kernel_rfl)
  have he := Prod.mk.inj he
  ⟨w, h, he.1, by simpa [shut] using he.2⟩

/-- Everything a call of `Close` does before it returns `res`. It closes the association in any case and returns the outcome. -/
def _root_.M3.Spec.CloseOutcome (l : List Ev) (res : ApiRes) : Prop :=
  (∃ b : Bool, res = .closed b ∧ l = [⟨.lock, ()⟩, ⟨.getSt, St.down⟩, ⟨.sctpClose, b⟩, ⟨.unlock, ()⟩]) ∨
  ∃ (st : St) (b : Bool), st ≠ .down ∧ res = .closed b ∧ l = [⟨.lock, ()⟩, ⟨.getSt, st⟩, ⟨.closeEst, ()⟩, ⟨.closeAck, ()⟩,
    ⟨.closeData, ()⟩, ⟨.putSt .down, ()⟩, ⟨.sctpClose, b⟩, ⟨.unlock, ()⟩]

/-- C74: `Close` closes the SCTP association exactly once and returns whether that succeeded. Unless it finds the state Down it sets
it to Down and closes the channels; if it does, it does nothing else. -/
theorem c74_close {E : Env} {w : World} (h : Reachable E w) {i : Nat} {t : Thread} (ht : w.threads[i]? = some t)
    (hc : t.gor = .api .close) {res : ApiRes} (hm : res ∈ returns (w.of i)) :
    ∃ l, (w.of i).map Rec.ev = l ++ [⟨.done res, ()⟩] ∧ CloseOutcome l res := by
  obtain ⟨l, hl, hC⟩ := Hist.call h ht hc (C := CloseOutcome) (by
    wp_code [Hist.ok_eq, Hist.may_eq, Hist.next_eq, Hist.Call, Facts.may, List.nil_append,
      List.append_assoc, List.cons_append, List.filterMap_cons, List.filterMap_nil, returned?]
    simp [CloseOutcome]) hm
  exact ⟨_, by rw [hl, List.map_append]; rfl, hC⟩

/-- Two calls of `Close`, one after the other. -/
example : ∃ w, Reachable E₀ w ∧ ((w.of 5).map fun x => x.ev.op, returns (w.of 5), (w.of 6).map fun x => x.ev.op, returns (w.of 6)) =
    ([.lock, .getSt, .closeEst, .closeAck, .closeData, .putSt .down, .sctpClose, .unlock, .done (.closed true)], [.closed true],
      [.lock, .getSt, .sctpClose, .unlock, .done (.closed false)], [.closed false]) :=
  reach_of (cs := opening .client ++ [.call .close] ++ go 5 9 ++ [.call .close] ++ go 6 2 ++ [.run 6 .fail] ++ go 6 2) (by kernel_rfl)

/-- C66: `Read` and `ReadPD` find the channel closed only if everything queued before has been taken. -/
theorem c66_drained {E : Env} {w : World} (h : Reachable E w) {l₁ l₂ : List Rec} {x : Rec} (hl : w.trace = l₁ ++ x :: l₂)
    (hx : took? x.ev = some none) (hc : w.sh.ctxDone = false) : (takes l₁).filterMap id = queues l₁ := by
  rw [Reachable] at h
  generalize hi : M3.Conn.init E = w' at h
  induction h generalizing l₂ with
  | refl =>
    subst hi
    have : (M3.Conn.init E).trace = [] := rfl
    rw [this] at hl
    simp at hl
  | @tail a c hab hs ih =>
    subst hi
    have old := fun t (ht : a.trace = l₁ ++ x :: t) (hc : a.sh.ctxDone = false) => ih ht hc
    cases hs with
    | env _ he => exact old _ hl (by cases he <;> first | exact hc | cases hc)
    | call => exact old _ hl hc
    | loop => exact old _ hl hc
    | crash => exact old _ hl hc
    | run i g hist o k r _ ht he =>
      have hc' : a.sh.ctxDone = false := by cases he <;> exact hc
      rcases split_append hl with ⟨c, h1, -⟩ | ⟨c, h1, h2⟩
      · exact old _ h1 hc'
      · rcases c with _ | ⟨y, c⟩
        · simp only [List.nil_append, List.cons.injEq] at h2
          obtain ⟨rfl, -⟩ := h2
          rw [List.append_nil] at h1
          subst h1
          have := (c66_fifo hab).2 hc'
          cases he <;> first
            | (cases hx; done)
            | (rename_i hq _; rw [hq, List.append_nil] at this; exact this)
        · simp at h2
    | sync i j gi gj hi hj oi oj ki kj ri rj _ _ hti htj he =>
      have hc' : a.sh.ctxDone = false := by cases he <;> exact hc
      rcases split_append hl with ⟨c, h1, -⟩ | ⟨c, h1, h2⟩
      · exact old _ h1 hc'
      · rcases c with _ | ⟨y, _ | ⟨z, c⟩⟩
        · simp only [List.nil_append, List.cons.injEq] at h2
          obtain ⟨rfl, -⟩ := h2
          cases he <;> cases hx
        · simp only [List.cons_append, List.nil_append, List.cons.injEq] at h2
          obtain ⟨-, rfl, -⟩ := h2
          cases he <;> cases hx
        · simp at h2

/-- Two payloads arrive, the connection is closed, the user takes both and then finds the channel closed. -/
example : ∃ w, Reachable E₀ w ∧ (w.sh.ctxDone, queues w.trace, takes w.trace) =
    (false, [⟨0, 0, 0, 0, 0, 0, [8]⟩, ⟨0, 0, 0, 0, 0, 0, [7]⟩],
      [some ⟨0, 0, 0, 0, 0, 0, [8]⟩, some ⟨0, 0, 0, 0, 0, 0, [7]⟩, none]) :=
  reach_of (cs := opening .client ++ twoData ++ go 8 2 ++ go 6 2 ++ [.call .readPD, .call .readPD, .call .readPD] ++ go 9 1 ++ go 10 1
    ++ go 11 1 ++ [.call .close] ++ go 12 9 ++ go 9 2 ++ go 10 2 ++ go 11 2) (by kernel_rfl)

end M3.Conn
