import Verif.Props.Conn.Handling
import Verif.Lemmas.Conn.Role

/- Heartbeat acknowledgements: C57. -/

set_option autoImplicit false
set_option linter.unusedSimpArgs false

namespace M3.Conn

open Spec

theorem sameBytes_iff : ∀ {a b : Bytes}, a.length = b.length → (sameBytes a b = true ↔ a = b)
  | [], [], _ => by simp [sameBytes]
  | x :: a, y :: b, h => by
    have := sameBytes_iff (a := a) (b := b) (by simpa using h)
    by_cases hxy : x = y <;> simp [sameBytes, hxy, this]

/-- For a parameter with the right tag, the check is equality. -/
theorem ackMatches_iff {p : Param} (hp : p.tag = 9) (b : Bytes) : ackMatches p b = decide (some p.data = some b) := by
  have h : p.heartbeatData = .ok p.data := by
    unfold Param.heartbeatData
    rw [if_neg (by simp [hp, Tag.heartbeatData])]
  rw [ackMatches, h]
  by_cases hl : p.data.length = b.length
  · have := sameBytes_iff hl
    by_cases he : p.data = b
    · simp [hl, he, this.mpr he]
      exact (sameBytes_iff rfl).mpr rfl
    · have : sameBytes p.data b = false := by cases hs : sameBytes p.data b <;> simp_all
      simp [he, this]
  · have : p.data ≠ b := fun h => hl (by rw [h])
    simp [hl, this]

/-- What has to be shown of the handler of a Heartbeat Ack. -/
def AckCall (d : Option Bytes) (e : CErr) (l : List Ev) (s : St) : Prop :=
  AckHandled d e (l.filterMap observed?) (l.filterMap beat?) (l.filterMap sent?) (l.filterMap complaint?)
    (l.countP fun x => x.op = .sendAck) s

/-- C57: how a Heartbeat Ack is handled. Whatever its data, whatever the state, the goroutine that sends heartbeats is told
exactly once that an acknowledgement has arrived. If the data are not those of the last heartbeat, or the state is not
AspActive, the message is reported as unexpected, in addition. -/
theorem c57_handled {E : Env} {w : World} (h : Reachable E w) {i : Nat} {t : Thread} (ht : w.threads[i]? = some t)
    {raw : Bytes} (hc : t.gor = .packet raw) (hk : meaning raw = some .heartbeatAck) {s : St} (hm : s ∈ reports (w.of i)) :
    ∃ m, M3UA.parse raw = .ok (.heartbeatAck m) ∧
      AckHandled (m.heartbeatData.map Param.data) (.unexpectedMessage (.heartbeatAck m)) (observes (w.of i))
        ((w.of i).filterMap fun x => beat? x.ev) (sends (w.of i)) (complaints (w.of i)) (acks (w.of i)) s := by
  obtain ⟨m, hp, hv, hmk⟩ := meaning_some hk
  cases m <;> simp only [M3UA.kind, Option.some.injEq, reduceCtorEq] at hmk
  rename_i m
  refine ⟨m, hp, ?_⟩
  have htag : ∀ p, m.heartbeatData = some p → p.tag = 9 := fun p hd => by
    have := (M3UA.parse_field hp rfl (n := .heartbeatData) (by decide) (p := p) (by rw [M3UA.field]; exact hd)).2
    exact this
  obtain ⟨l, hl, hC⟩ := Handler.conclude h ht hc (C := AckCall (m.heartbeatData.map Param.data)
      (.unexpectedMessage (.heartbeatAck m))) (by
    rw [body, packet_eq]
    simp only [hp]
    handler [AckCall, AckHandled, beat?, hv, List.countP_append, List.countP_cons, List.countP_nil]
    simp +contextual [ackMatches_iff, htag]) hm
  rw [AckCall, List.filterMap_map, List.filterMap_map, List.filterMap_map, List.filterMap_map, List.countP_map] at hC
  rw [hl, observes, sends, complaints, acks, List.filterMap_append, List.filterMap_append, List.filterMap_append,
    List.filterMap_append, List.countP_append]
  exact (List.append_nil _).symm ▸ (List.append_nil _).symm ▸ (List.append_nil _).symm ▸ (List.append_nil _).symm ▸ hC

/-- C57: being told counts: the goroutine that sends heartbeats leaves the wait for the acknowledgement of its heartbeat
(instead of letting the timer expire). -/
theorem c57_counts {E : Env} {w : World} (h : Reachable E w) {l₁ l₂ : List Rec} {x : Rec}
    (hl : w.trace = l₁ ++ x :: l₂) (hx : x.ev.op = .sendAck) :
    ∃ j l₃, l₂ = ⟨j, .beatLoop, .ackSelect, .ack⟩ :: l₃ := by
  obtain ⟨y, l₃, rfl, sh, sh', hm⟩ := Role.sent h hl (by rw [hx]; rfl)
  have hy := (Role.reach h y (by rw [hl]; simp)).2
  obtain ⟨j, g, oy, ry⟩ := y
  obtain ⟨_, _, ox, rx⟩ := x
  simp only at hx
  subst hx
  cases hm
  have : g = .beatLoop := by simpa [Role.role] using hy
  subst this
  exact ⟨j, l₃, rfl⟩

theorem only_ack {E : Env} {raw : Bytes} : WP (Hist fun _ o => o = .sendAck → meaning raw = some .heartbeatAck)
    (.packet raw) (fun _ _ => True) [] (body E (.packet raw)) := by
  rw [body, packet_eq]
  cases hp : M3UA.parse raw with
  | ok m =>
    by_cases hv : m.version = 1
    · have he : meaning raw = m.kind := by
        rw [meaning, hp]; simp only; rw [(M3UA.parse_octets hp).1, if_pos hv]
      cases m <;> wp_code [Hist.ok_eq, Hist.may_eq, Hist.next_eq, he, M3UA.kind] <;> simp [he, M3UA.kind]
    · cases m <;> wp_code [Hist.ok_eq, Hist.may_eq, Hist.next_eq] <;> simp [hv]
  | _ => wp_code [Hist.ok_eq, Hist.may_eq, Hist.next_eq] <;> simp

/-- C57: nothing else counts: whenever that goroutine takes an acknowledgement, a handler of a received Heartbeat Ack has told it
so just before. -/
theorem c57_only {E : Env} {w : World} (h : Reachable E w) {l₁ l₂ : List Rec} {x : Rec}
    (hl : w.trace = l₁ ++ x :: l₂) (hx : x.ev = ⟨.ackSelect, .ack⟩) :
    ∃ i raw l₃, l₁ = l₃ ++ [⟨i, .packet raw, .sendAck, ()⟩] ∧ meaning raw = some .heartbeatAck := by
  obtain ⟨y, l₃, rfl, sh, sh', hm⟩ := Role.received h hl (by rw [hx]; intro _ _ h; cases h) (by rw [hx]; rfl)
  have hy := (Role.reach h y (by rw [hl]; simp)).2
  have hof : w.of y.tid = l₃.filter (·.tid == y.tid) ++ y :: (x :: l₂).filter (·.tid == y.tid) := by
    rw [World.of, hl, List.append_assoc, List.filter_append, List.singleton_append, List.filter_cons_of_pos (by simp)]
  obtain ⟨j, g, oy, ry⟩ := y
  obtain ⟨_, _, ox, rx⟩ := x
  cases hx
  cases hm
  cases g <;> simp [Role.role, Role.cl] at hy
  rename_i raw
  obtain ⟨-, -, -, hP⟩ := Hist.iter h hof only_ack
  exact ⟨j, raw, l₃, rfl, hP rfl⟩

/-- For `c57_handled`, `c57_counts` and `c57_only`: a heartbeat with 128 zeros is sent; a Heartbeat Ack with the data `[7]` is received, answered with an Error message with
code 6, and the heartbeat goroutine continues as if it had received the right data. -/
example : ∃ w, Reachable E₁ w ∧ (receives w.trace, acks w.trace, (complaints w.trace).length,
    ((w.of 3).getLast?.map Rec.ev).map fun e => decide (e.op = .ackSelect)) =
    ([ackMsg, message 1 3 6 [tlv 9 [7]]], 1, 2, some true) :=
  reach_of (cs := openingBeat ++ go 3 1 ++ beat (List.replicate 128 0) ++ [.deliver (message 1 3 6 [tlv 9 [7]])] ++ go 2 2
      ++ [.loop 2] ++ go 5 3 ++ [.sync 5 2] ++ go 2 2 ++ [.loop 2, .sync 5 3] ++ go 5 1 ++ [.sync 5 2]) (by kernel_rfl)

end M3.Conn
