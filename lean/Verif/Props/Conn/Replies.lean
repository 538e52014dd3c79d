import Verif.Lemmas.Conn.Reply
import Verif.Props.Conn.Flow
import Verif.Props.Conn.Pulse
import Verif.Props.Conn.Kept

/- Every request is answered, or refused: C97. -/

set_option autoImplicit false
set_option linter.unusedSimpArgs false

namespace M3.Spec

open M3.Conn

/-- How many errors were reported by goroutines that handle messages of kind `k`. -/
def refusals (k : Kind) (l : List Rec) : Nat :=
  l.countP fun x => match x.gor, x.ev.op with
    | .packet b, .sendErr _ => meaning b = some k
    | _, _ => false

/-- The requests and how their answers begin: message class and type. -/
def requests : List (Kind × UInt8 × UInt8) :=
  [(.aspUp, 3, 4), (.aspDown, 3, 5), (.aspActive, 4, 3), (.aspInactive, 4, 4), (.heartbeat, 3, 6)]

end M3.Spec

namespace M3.Conn

open Spec

namespace Reply

def ofKind (k : Kind) (p : Bytes → Bool) : Weights where
  raw b := if meaning b = some k then 1 else 0
  sent d := if p d then 1 else 0

theorem bound_kind {k : Kind} {p : Bytes → Bool} (ha : ∀ b d, Flow.Answer b d → meaning b = some k → p d = true)
    (hk : ∀ b, meaning b = some k → asks b) {E : Env} {w : World} (h : Reachable E w) (hc : w.sh.ctxDone = false) (hs : Settled w) :
    (receives w.trace).countP (fun b => meaning b = some k) ≤ (ownSends w.trace).countP (fun x => p x.bytes) + refusals k w.trace := by
  have hb := bound (W := ofKind k p) ⟨fun b d h => ?_, fun b h => ?_⟩ h hc hs
  · rw [show (ofKind k p).raw = fun b => if decide (meaning b = some k) = true then 1 else 0 from by
      funext b; simp [ofKind], tot_countP] at hb
    refine Nat.le_trans hb ?_
    rw [ownSends, sends, List.countP_filterMap, List.countP_filter, refusals, ← tot_countP, ← tot_countP]
    generalize w.trace = l
    induction l with
    | nil => exact Nat.le_refl _
    | cons x l ih =>
      simp only [tot_cons]
      refine Nat.le_trans (Nat.add_le_add_left ih _) ?_
      generalize tot _ l = n₁
      generalize tot _ l = n₂
      suffices (ofKind k p).ev x ≤ _ + _ by
        rw [show ∀ a b : Nat, a + n₁ + (b + n₂) = (a + b) + (n₁ + n₂) by omega]
        exact Nat.add_le_add_right this _
      obtain ⟨i, g, o, r⟩ := x
      cases g <;> cases o <;> simp [Weights.ev, ofKind, sent?, ofUser]
  · simp only [ofKind]
    by_cases hm : meaning b = some k
    · rw [if_pos hm, if_pos (ha b d h hm)]; exact Nat.le_refl _
    · rw [if_neg hm]; exact Nat.zero_le _
  · exact if_neg fun hm => h (hk b hm)

end Reply

/-- C97: when all handlers have ended and the context is not done, each request that was received (ASP Up, ASP Down, ASP Active, ASP Inactive,
Heartbeat) has been answered or an error was reported for it. -/
theorem c97_handled {E : Env} {w : World} (h : Reachable E w) (hc : w.sh.ctxDone = false) (hs : Settled w) {k : Kind} {o : UInt8 × UInt8}
    (hk : (k, o) ∈ requests) :
    (receives w.trace).countP (fun b => meaning b = some k) ≤
      (ownSends w.trace).countP (fun x => (octets x.bytes).2 = o.2 ∧ (k ≠ .heartbeat → octets x.bytes = o)) + refusals k w.trace := by
  refine Reply.bound_kind (p := fun d => decide ((octets d).2 = o.2 ∧ (k ≠ .heartbeat → octets d = o))) ?_ ?_ h hc hs
  · intro b d ha hm
    simp only [requests, List.mem_cons, Prod.mk.injEq, List.not_mem_nil, or_false] at hk
    rcases hk with ⟨rfl, rfl⟩ | ⟨rfl, rfl⟩ | ⟨rfl, rfl⟩ | ⟨rfl, rfl⟩ | ⟨rfl, rfl⟩ <;> simp only [Flow.Answer, hm] at ha <;> simp at ha <;> simp [ha]
  · intro b hm
    simp only [requests, List.mem_cons, Prod.mk.injEq, List.not_mem_nil, or_false] at hk
    rcases hk with ⟨rfl, rfl⟩ | ⟨rfl, rfl⟩ | ⟨rfl, rfl⟩ | ⟨rfl, rfl⟩ | ⟨rfl, rfl⟩ <;> simp [Reply.asks, hm]

/-- A server that receives an ASP Up, and a heartbeat while it is not active: the former is answered, for the latter an error is reported. -/
example : ∃ w, Reachable { E₀ with mode := .server } w ∧ w.sh.ctxDone = false ∧ Settled w ∧
    receives w.trace = [message 1 3 1 [], message 1 3 3 [tlv 9 [7]]] ∧
    (ownSends w.trace).map Sent.bytes = [message 1 3 4 [], message 1 0 0 [tlv 12 (be32 6), tlv 18 (be32 1)]] ∧
    (refusals .aspUp w.trace, refusals .heartbeat w.trace) = (0, 1) := by
  obtain ⟨w, h, e⟩ := reach_of (E := { E₀ with mode := .server }) (f := fun w => (w.sh.ctxDone, settledB w, receives w.trace,
      (ownSends w.trace).map Sent.bytes, refusals .aspUp w.trace, refusals .heartbeat w.trace))
    (cs := boot .server ++ [.deliver (message 1 3 1 []), .deliver (message 1 3 3 [tlv 9 [7]])] ++ go 2 2 ++ [.loop 2] ++
      go 4 5 ++ [.sync 4 2] ++ go 2 6 ++ [.loop 2] ++ go 5 2 ++ [.sync 5 2] ++ go 2 2 ++ go 5 1 ++ [.loop 2, .sync 5 2])
    (v := (false, true, [message 1 3 1 [], message 1 3 3 [tlv 9 [7]]], [message 1 3 4 [], message 1 0 0 [tlv 12 (be32 6), tlv 18 (be32 1)]], 0, 1))
    (by kernel_rfl)
  simp only [Prod.mk.injEq] at e
  obtain ⟨e1, e2, e3, e4, e5, e6⟩ := e
  exact ⟨w, h, e1, settledB_sound e2, e3, e4, by rw [e5, e6]⟩

/-- C97: together with C52, if no error was reported for such requests, there are exactly as many answers as requests. -/
theorem c97_answered {E : Env} {w : World} (h : Reachable E w) (hc : w.sh.ctxDone = false) (hs : Settled w) {k : Kind} {o : UInt8 × UInt8}
    (hk : (k, o) ∈ requests) (hr : refusals k w.trace = 0) :
    (ownSends w.trace).countP (fun x => (octets x.bytes).2 = o.2 ∧ (k ≠ .heartbeat → octets x.bytes = o)) =
      (receives w.trace).countP (fun b => meaning b = some k) := by
  refine Nat.le_antisymm ?_ (by have := c97_handled h hc hs hk; omega)
  by_cases hh : k = .heartbeat
  · subst hh
    have : o = (3, 6) := by simpa [requests] using hk
    subst this
    refine Nat.le_trans (List.countP_mono_left fun x _ hx => ?_) (c52_heartbeat h)
    simp only [decide_eq_true_iff] at hx ⊢
    exact hx.1
  · refine Nat.le_trans (List.countP_mono_left fun x _ hx => ?_) (c52_acks h (k := k) (o := o) ?_)
    · simp only [decide_eq_true_iff] at hx ⊢
      exact hx.2 hh
    · simp only [requests, List.mem_cons, Prod.mk.injEq, List.not_mem_nil, or_false] at hk ⊢
      rcases hk with h | h | h | h | h
      · exact .inl h
      · exact .inr (.inl h)
      · exact .inr (.inr (.inl h))
      · exact .inr (.inr (.inr h))
      · exact (hh h.1).elim

/-- C97: in particular, in a session without errors every heartbeat of the peer is answered. -/
theorem c97_heartbeats {E : Env} (hE : E.maxStream ≠ 0) {w : World} (h : Alone E w) (hu : Attended E.mode w) (hr : Idle E w)
    (hq : w.sh.dataQ.length < 65535) :
    (ownSends w.trace).countP (fun x => (octets x.bytes).2 = 6) = (receives w.trace).countP (fun b => meaning b = some .heartbeat) := by
  have hs : Settled w := by
    rcases (c95_rest hE h hu hr).2.2.2.2 with h | h
    · exact h
    · omega
  have := c97_answered h.reachable hu.ctx hs (k := .heartbeat) (o := (3, 6)) (by simp [requests]) (by
    rw [refusals, List.countP_eq_zero]
    intro x hx hx'
    have hno := (c95_safe hE h hu).2.1
    rw [complaints, List.filterMap_eq_nil_iff] at hno
    have := hno x hx
    obtain ⟨i, g, o, r⟩ := x
    cases g <;> cases o <;> first | (cases hx'; done) | cases this)
  simpa using this

/-- A client receives the two messages of the handshake and two heartbeats, and answers these. -/
example : ∃ w, Alone E₀ w ∧ E₀.maxStream ≠ 0 ∧ Attended E₀.mode w ∧ Idle E₀ w ∧ w.sh.dataQ.length < 65535 ∧ refusals .heartbeat w.trace = 0 ∧
    receives w.trace = [message 1 3 4 [], message 1 4 3 [], message 1 3 3 [tlv 9 [7]], message 1 3 3 []] ∧
    (ownSends w.trace).map Sent.bytes = [message 1 3 1 [], message 1 4 1 [], message 1 3 6 [tlv 9 [7]], message 1 3 6 []] := by
  have h : (play (body' E₀) (M3.Conn.init E₀) (boot .client ++ [.deliver (message 1 3 4 [])] ++ go 2 2 ++ [.loop 2] ++ go 4 3 ++ [.sync 4 2] ++ go 2 6 ++
      [.deliver (message 1 4 3 [])] ++ go 2 2 ++ [.loop 2] ++ go 5 2 ++ [.sync 5 2] ++ go 2 3 ++ [.sync 2 0] ++ go 2 2 ++ go 0 1 ++ go 3 1 ++
      [.deliver (message 1 3 3 [tlv 9 [7]])] ++ go 2 2 ++ [.loop 2] ++ go 6 5 ++ [.sync 6 2] ++ go 2 4 ++
      [.deliver (message 1 3 3 [])] ++ go 2 2 ++ [.loop 2] ++ go 7 5 ++ [.sync 7 2] ++ go 2 4)).map
      (fun w => (w.sh.ctxDone, w.trace.all (fun x => x.gor ≠ .api .close), w.trace.all (fun x => ofUser x.gor || x.ev.calm), waitB w, inStepB w.trace,
        w.sh.dataQ, refusals .heartbeat w.trace, receives w.trace, (ownSends w.trace).map Sent.bytes)) = some
    (false, true, true, true, true, [], 0, [message 1 3 4 [], message 1 4 3 [], message 1 3 3 [tlv 9 [7]], message 1 3 3 []],
      [message 1 3 1 [], message 1 4 1 [], message 1 3 6 [tlv 9 [7]], message 1 3 6 []]) := by kernel_rfl
  obtain ⟨w, h1, h2⟩ := reach_alone h (by rfl)
  simp only [Prod.mk.injEq] at h2
  obtain ⟨h2, h3, h4, h5, h6, h7, h8, h9, h10⟩ := h2
  refine ⟨w, h1, by decide, ⟨h2, ?_, inStepB_sound h6, by simpa using h3, ?_⟩, waitB_sound h5, by rw [h7]; decide, h8, h9, h10⟩
  · rw [h9]
    intro i raw hi
    match i with
    | 0 => cases hi; exact .inl (show meaning (message 1 3 4 []) = some .aspUpAck by kernel_rfl)
    | 1 => cases hi; exact .inl (show meaning (message 1 4 3 []) = some .aspActiveAck by kernel_rfl)
    | 2 => cases hi; exact .inl (.inr (.inl (show meaning (message 1 3 3 [tlv 9 [7]]) = some .heartbeat by kernel_rfl)))
    | 3 => cases hi; exact .inl (.inr (.inl (show meaning (message 1 3 3 []) = some .heartbeat by kernel_rfl)))
    | i + 4 => simp at hi
  · intro x hx hu
    have := List.all_eq_true.mp h4 x hx
    simpa [hu] using this

end M3.Conn
