import Verif.Lemmas.Conn.Token
import Verif.Lemmas.Conn.Sched

/- Properties of the order in which datagrams are read: C48, C49, C58. -/

set_option autoImplicit false

namespace M3.Conn

open Spec

/-! ### C48: one message at a time -/

/-- C48: in every execution, reading datagrams and reporting states take turns. -/
theorem c48_turns {E : Env} {w : World} (h : Reachable E w) : ∃ p, turns .start w.trace = some p := by
  obtain ⟨ss, -, hi⟩ := Token.reach h
  obtain ⟨p, hp, -⟩ := hi.run
  exact ⟨p, hp⟩

theorem turns_back {raw : Bytes} {l : List Rec} (h : turns (.busy raw) l = some .ready) :
    ∃ z ∈ l, z.gor = .packet raw ∧ ∃ s, z.ev.op = .sendState s := by
  induction l with
  | nil => cases h
  | cons x l ih =>
    obtain ⟨i, g, o, r⟩ := x
    cases o
    case sendState s =>
      cases g <;> simp only [turns, reduceCtorEq] at h
      rename_i raw'
      split at h
      · rename_i he
        subst he
        exact ⟨_, .head _, rfl, s, rfl⟩
      · cases h
    case read n => cases r <;> simp only [turns, reduceCtorEq] at h
    all_goals
      obtain ⟨z, hz, hz'⟩ := ih h
      exact ⟨z, .tail _ hz, hz'⟩

/-- C48: between reading a datagram and the next attempt to read, the handler of that datagram has reported
the state that follows from it. -/
theorem c48_between {E : Env} {w : World} (h : Reachable E w) {l₁ l₂ l₃ : List Rec} {x y : Rec} {raw : Bytes}
    (ht : w.trace = l₁ ++ x :: l₂ ++ y :: l₃) (hx : received? x.ev = some raw) (hy : Spec.isRead y.ev = true) :
    ∃ z ∈ l₂, z.gor = .packet raw ∧ ∃ s, z.ev.op = .sendState s := by
  obtain ⟨p, hp⟩ := c48_turns h
  have hx' : ∃ i g n, x = ⟨i, g, .read n, some raw⟩ := by
    obtain ⟨i, g, o, r⟩ := x
    cases o <;> simp only [received?, reduceCtorEq] at hx
    exact ⟨i, g, _, by rw [hx]⟩
  obtain ⟨i, g, n, rfl⟩ := hx'
  rw [ht, show l₁ ++ (⟨i, g, .read n, some raw⟩ : Rec) :: l₂ ++ y :: l₃
    = l₁ ++ ([⟨i, g, .read n, some raw⟩] ++ (l₂ ++ (y :: l₃))) by simp,
    Token.run_append] at hp
  cases h1 : turns .start l₁ with
  | none => rw [h1] at hp; cases hp
  | some p₁ =>
    rw [h1] at hp
    simp only [Option.bind_some, Token.run_append] at hp
    cases p₁ <;> simp only [turns, Option.bind_some, Option.bind_none, reduceCtorEq] at hp
    cases h2 : turns (.busy raw) l₂ with
    | none => rw [h2] at hp; cases hp
    | some p₂ =>
      rw [h2] at hp
      have : p₂ = .ready := by
        obtain ⟨i, g, o, r⟩ := y
        cases o <;> simp only [Spec.isRead, Bool.false_eq_true] at hy
        cases p₂ <;> cases r <;> simp only [turns, Option.bind_some, reduceCtorEq] at hp <;> rfl
      subst this
      exact turns_back h2

/-- Two datagrams can be read. -/
example : ∃ w, Reachable E₀ w ∧ (w.trace.filter fun x => Spec.isRead x.ev).map (fun x => received? x.ev) =
    [some ackMsg, some ackMsg] :=
  reach_of (cs := opening .client ++ [.deliver ackMsg] ++ go 2 1) (by kernel_rfl)

/-! ### C49: undecodable datagrams -/

/-- `messages.Parse` rejects the datagram, or its version is not 1. -/
def _root_.M3.Spec.Unusable (raw : Bytes) : Prop := ∀ m, M3UA.parse raw = .ok m → raw.getD 0 0 ≠ 1

theorem not_returns {E : Env} {raw : Bytes} (h : Unusable raw) : Token.returns E raw = false := by
  unfold Token.returns
  cases hp : M3UA.parse raw with
  | ok m =>
    have h1 := h m hp
    rw [(M3UA.parse_octets hp).1] at h1
    cases m <;> simp_all [M3UA.version]
  | _ => rfl

theorem silent {E : Env} {w : World} (h : Reachable E w) {l₁ l₂ : List Rec} {x : Rec} {raw : Bytes}
    (ht : w.trace = l₁ ++ x :: l₂) (hx : received? x.ev = some raw) (hr : Token.returns E raw = false) :
    ∀ y ∈ l₂, Spec.isRead y.ev = false := by
  obtain ⟨ss, -, hi⟩ := Token.reach h
  have hl : Token.lostRead E x = true := by
    obtain ⟨i, g, o, r⟩ := x
    cases o <;> simp only [received?, reduceCtorEq] at hx
    subst hx
    simp [Token.lostRead, hr]
  intro y hy
  have := hi.silent l₁ x l₂ ht hl y hy
  obtain ⟨i, g, o, r⟩ := y
  cases o <;> first | rfl | cases this

/-- C49: after receiving a datagram that cannot be decoded or has a wrong version, the connection never reads
again, whatever happened before and whatever happens afterwards. -/
theorem c49_silent {E : Env} {w : World} (h : Reachable E w) {l₁ l₂ : List Rec} {x : Rec} {raw : Bytes}
    (ht : w.trace = l₁ ++ x :: l₂) (hx : received? x.ev = some raw) (hr : Unusable raw) :
    ∀ y ∈ l₂, Spec.isRead y.ev = false := silent h ht hx (not_returns hr)

/-- C49: in particular, whatever else the peer sends after such a datagram stays unread in every continuation. -/
theorem c49_unread {E : Env} {w w' : World} (h : Reachable E w) (hs : Steps E w w') {raw : Bytes}
    (hx : raw ∈ receives w.trace) (hr : Unusable raw) : receives w'.trace = receives w.trace := by
  obtain ⟨tl, htl⟩ := Steps.trace hs
  obtain ⟨x, hxm, hxr⟩ := List.mem_filterMap.mp hx
  obtain ⟨l₁, l₂, hl⟩ := List.append_of_mem hxm
  have := c49_silent (w := w') (Steps.trans h hs) (l₁ := l₁) (x := x) (l₂ := l₂ ++ tl)
    (by rw [htl, hl]; simp) hxr hr
  rw [htl, receives, List.filterMap_append, receives]
  have h0 : tl.filterMap (fun x => received? x.ev) = [] := by
    rw [List.filterMap_eq_nil_iff]
    intro y hy
    have := this y (List.mem_append_right _ hy)
    obtain ⟨i, g, o, r⟩ := y
    cases o <;> first | rfl | cases this
  rw [h0, List.append_nil]

/-- One byte, or an ASP Up of version 2, is such a datagram; so the connection can get into that state. -/
example : Unusable [1] ∧ Unusable [2, 0, 3, 1, 0, 0, 0, 8] ∧
    ∃ w, Reachable E₀ w ∧ receives w.trace = [[2, 0, 3, 1, 0, 0, 0, 8]] := by
  refine ⟨fun m h => ?_, fun m h => by decide, reach_of
    (cs := boot .client ++ [.deliver [2, 0, 3, 1, 0, 0, 0, 8]] ++ go 2 2) (by kernel_rfl)⟩
  cases h

/-! ### C58: unsolicited heartbeat acks -/

/-- C58: without heartbeats, after receiving a decodable Heartbeat Ack the connection never reads again. -/
theorem c58_silent {E : Env} (hE : E.hb.enabled = false) {w : World} (h : Reachable E w) {l₁ l₂ : List Rec}
    {x : Rec} {raw : Bytes} (ht : w.trace = l₁ ++ x :: l₂) (hx : received? x.ev = some raw)
    {m : Msg.HeartbeatAck} (hr : M3UA.parse raw = .ok (.heartbeatAck m)) : ∀ y ∈ l₂, Spec.isRead y.ev = false :=
  silent h ht hx (by simp [Token.returns, hr, hE])

example : (∃ m, M3UA.parse [1, 0, 3, 6, 0, 0, 0, 8] = .ok (.heartbeatAck m)) ∧ E₀.hb.enabled = false ∧
    ∃ w, Reachable E₀ w ∧ receives w.trace = [ackMsg, [1, 0, 3, 6, 0, 0, 0, 8]] :=
  ⟨⟨_, rfl⟩, rfl, reach_of (cs := opening .client ++ [.deliver [1, 0, 3, 6, 0, 0, 0, 8]] ++ go 2 2) (by kernel_rfl)⟩

end M3.Conn
