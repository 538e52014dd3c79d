import Verif.Lemmas.Conn.MonRound
import Verif.Lemmas.Conn.Sched

/- What the monitor does with the states reported to it, and which goroutine sends what: C71. -/

set_option autoImplicit false
set_option linter.unusedSimpArgs false

namespace M3.Conn

open Spec

/-- C71: what the monitor does about a state that was reported to it, before it turns to anything else. A client asks for the
next state, in both modes one datagram is read and handed to a handler of its own, and a failing read closes the connection. -/
theorem c71_state {E : Env} {w : World} (h : Reachable E w) {i : Nat} {g : Gor} {s : St} {l₁ l₂ : List Rec}
    (hl : w.of i = l₁ ++ ⟨i, g, .monSelect, .state s⟩ :: l₂) :
    ∃ now later, l₂ = now ++ later ∧ (∀ y l, later = y :: l → y.ev.op = .monSelect) ∧
      (∀ y ∈ now, y.ev.op ≠ .monSelect) ∧
      Entered (request E.cfg E.mode s) s (now.map Rec.ev) (later = []) := by
  obtain ⟨now, later, h1, h2, h3, h4⟩ := (monRounds E).at h hl
  refine ⟨now, later, h1, h2, h3, ?_⟩
  rcases h4 with ⟨rfl, h4⟩ | h4
  · simpa [MonRound] using h4
  · obtain ⟨prev, h5, h6⟩ := h4
    simp only [false_and, or_false] at h6
    exact ⟨prev, h5, .inl h6⟩

/-- C71: when the monitor notices that the context is done it closes the connection and does nothing else. -/
theorem c71_cancelled {E : Env} {w : World} (h : Reachable E w) {i : Nat} {g : Gor} {l₁ l₂ : List Rec}
    (hl : w.of i = l₁ ++ ⟨i, g, .monSelect, .ctx⟩ :: l₂) : sends l₂ = [] ∧ closes (others (l₂.map Rec.ev)) := by
  obtain ⟨now, later, rfl, -, -, h4⟩ := (monRounds E).at h hl
  rcases h4 with ⟨rfl, h4⟩ | h4
  · obtain ⟨-, h5, h6⟩ := h4
    rw [List.append_nil]
    exact ⟨by rw [sends, ← h5, List.filterMap_map]; rfl, h6⟩
  · exact h4.1.elim

/-- ASP Up, ASP Up Ack, ASP Active: a client that opens a connection. The first round of its monitor enters AspDown, the second
AspInactive. For `c71_state`: the monitor has been told "down" and "inactive". -/
example : ∃ w, Reachable E₀ w ∧ sends (w.of 2) = [⟨message 1 3 1 [], 0, 3, some 0⟩, ⟨message 1 4 1 [], 0, 3, some 0⟩] ∧
    others ((w.of 2).map Rec.ev) = [.spawn .heartbeat, .monSelect, .lock, .getSt, .putSt .down, .unlock, .read 1500,
      .spawn (.packet [1, 0, 3, 4, 0, 0, 0, 8]), .monSelect, .lock, .getSt, .putSt .inactive, .unlock, .read 1500] := by
  obtain ⟨w, h1, h2⟩ := reach_of (E := E₀) (f := fun w => (sends (w.of 2), others ((w.of 2).map Rec.ev)))
    (cs := boot .client ++ [.deliver [1, 0, 3, 4, 0, 0, 0, 8]] ++ go 2 2 ++ [.loop 2] ++ go 4 3 ++ [.sync 4 2] ++ go 2 6
      ++ [.run 2 .fail])
    (v := ([⟨message 1 3 1 [], 0, 3, some 0⟩, ⟨message 1 4 1 [], 0, 3, some 0⟩],
      [.spawn .heartbeat, .monSelect, .lock, .getSt, .putSt .down, .unlock, .read 1500,
      .spawn (.packet [1, 0, 3, 4, 0, 0, 0, 8]), .monSelect, .lock, .getSt, .putSt .inactive, .unlock, .read 1500])) (by kernel_rfl)
  simp only [Prod.mk.injEq] at h2
  exact ⟨w, h1, h2.1, h2.2⟩

/-- The context is cancelled while the peer's first message is handled. -/
example : ∃ w, Reachable E₀ w ∧ others (((w.of 2).map Rec.ev).drop 10) =
    [.monSelect, .lock, .getSt, .sctpClose, .unlock, .broadcast] := by
  obtain ⟨w, h1, h2⟩ := reach_of (E := E₀) (f := fun w => others (((w.of 2).map Rec.ev).drop 10))
    (cs := boot .client ++ [.deliver [1, 0, 3, 4, 0, 0, 0, 8]] ++ go 2 2 ++ [.loop 2, .cancel] ++ go 2 6)
    (v := [.monSelect, .lock, .getSt, .sctpClose, .unlock, .broadcast]) (by kernel_rfl)
  exact ⟨w, h1, h2⟩

/-! ### Who sends what -/

theorem wire_oct (m : M3UA) : octets m.wire = (m.header.cls, m.header.typ) := by
  obtain ⟨-, h2, h3⟩ := m.wire_octets
  rw [octets, h2, h3]

theorem reply_oct {E : Env} {e : CErr} {m : M3UA} (h : reply E e = some m) : octets m.wire = (0, 0) := by
  cases e <;> simp only [reply, Option.some.injEq, reduceCtorEq] at h <;> subst h <;> exact wire_oct _

theorem meaning_eq {raw : Bytes} {m : M3UA} (hp : M3UA.parse raw = .ok m) (hv : m.version = 1) : meaning raw = m.kind := by
  rw [meaning, hp]
  simp only
  rw [if_pos]
  rw [← hv, ← (M3UA.parse_octets hp).1]

theorem oct_aspUp (a b) : octets (M3UA.aspUp (Msg.AspUp.new a b)).wire = (3, 1) := wire_oct _
theorem oct_aspUpAck (a b) : octets (M3UA.aspUpAck (Msg.AspUpAck.new a b)).wire = (3, 4) := wire_oct _
theorem oct_aspDownAck (a) : octets (M3UA.aspDownAck (Msg.AspDownAck.new a)).wire = (3, 5) := wire_oct _
theorem oct_aspActive (a b c) : octets (M3UA.aspActive (Msg.AspActive.new a b c)).wire = (4, 1) := wire_oct _
theorem oct_aspActiveAck (a b c) : octets (M3UA.aspActiveAck (Msg.AspActiveAck.new a b c)).wire = (4, 3) := wire_oct _
theorem oct_aspInactiveAck (a b) : octets (M3UA.aspInactiveAck (Msg.AspInactiveAck.new a b)).wire = (4, 4) := wire_oct _
theorem oct_beat (a b) : octets (M3UA.heartbeat { Msg.Heartbeat.new a with heartbeatData := b }).wire = (3, 3) := wire_oct _

theorem oct_heartbeat {raw : Bytes} {m : Msg.Heartbeat} (h : M3UA.parse raw = .ok (.heartbeat m)) :
    octets (M3UA.heartbeat { m with header := { m.header with typ := 6 } }).wire = ((octets raw).1, 6) := by
  rw [wire_oct, octets, (M3UA.parse_octets h).2.1]
  rfl

theorem senders (E : Env) (g : Gor) : WP (Hist fun _ o => ∀ b i, o = .write b i → mayCarry E.mode g b) g
    (fun _ _ => True) [] (body E g) := by
  cases g with
  | monitorLoop =>
    obtain ⟨mode, cfg, hb, ms⟩ := E
    cases mode <;> wp_code [Hist.ok_eq, Hist.may_eq, Hist.next_eq, mayCarry, Op.write.injEq] <;>
      simp +contextual [forall_st, oct_aspUp, oct_aspActive, reply_oct]
    · exact fun _ _ _ h _ _ => .inl (reply_oct h)
    · exact fun _ _ _ h _ _ => reply_oct h
  | packet raw =>
    rw [body, packet_eq]
    cases hp : M3UA.parse raw with
    | ok m =>
      by_cases hv : m.version = 1
      · have hm := meaning_eq hp hv
        cases m <;> wp_code [Hist.ok_eq, Hist.may_eq, Hist.next_eq, mayCarry, hm, M3UA.kind, Op.write.injEq] <;>
          simp +contextual [oct_aspUpAck, oct_aspDownAck, oct_aspActiveAck, oct_aspInactiveAck]
        simp +contextual [oct_heartbeat hp]
      · wp_code [Hist.ok_eq, Hist.may_eq, Hist.next_eq, hv]
    | _ => wp_code []
  | beatLoop =>
    wp_code [Hist.ok_eq, Hist.may_eq, Hist.next_eq, mayCarry, Op.write.injEq]
    simp +contextual [oct_beat]
  | api c => cases c <;> wp_code [Hist.ok_eq, Hist.may_eq, Hist.next_eq, mayCarry] <;> simp
  | _ => wp_code [Hist.ok_eq, Hist.may_eq, Hist.next_eq, mayCarry] <;> simp

/-- C71: which goroutine sends what. The monitor of a server sends nothing but Error messages: a server never takes the
initiative. -/
theorem c71_sender {E : Env} {w : World} (h : Reachable E w) {x : Rec} (hx : x ∈ w.trace) {s : Sent}
    (hs : sent? x.ev = some s) : mayCarry E.mode x.gor s.bytes := by
  have hm : x ∈ w.of x.tid := List.mem_filter.mpr ⟨hx, by simp⟩
  obtain ⟨l₁, l₂, hl⟩ := List.append_of_mem hm
  obtain ⟨-, h₁, -, hP⟩ := Hist.iter h hl (senders E x.gor)
  obtain ⟨i, g, o, r⟩ := x
  cases o <;> simp only [sent?, reduceCtorEq, Option.some.injEq] at hs
  subst hs
  exact hP _ _ rfl

/-- A client's ASP Up, sent by the monitor. -/
example : ∃ w, Reachable E₀ w ∧ (w.trace.filterMap fun x => (sent? x.ev).map fun s => (x.gor, octets s.bytes)) =
    [(.monitorLoop, (3, 1))] :=
  reach_of (cs := boot .client) (by kernel_rfl)

end M3.Conn
