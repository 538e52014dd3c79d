import Verif.Lemmas.Conn.Hist
import Verif.Lemmas.Conn.Sched
import Verif.Spec.Handling
import Verif.Props.MessageLayout

/- How received messages are handled and how errors are answered: C44, C45, C47, C57, C63. -/

set_option autoImplicit false
set_option linter.unusedSimpArgs false

namespace M3.Conn

open Spec

/-! ### The handler of a received message -/

/-- What has to be shown of a handler: it reports a state once, as its last operation, and then `C` holds. -/
def Handler (C : List Ev → St → Prop) (s : List Ev) (o : Op) : Prop :=
  s.filterMap reported? = [] ∧ match o with
    | .sendState x => C s x
    | _ => True

theorem Handler.conclude {E : Env} {w : World} (h : Reachable E w) {i : Nat} {t : Thread} (ht : w.threads[i]? = some t)
    {raw : Bytes} (hc : t.gor = .packet raw) {C : List Ev → St → Prop}
    (hw : WP (Hist (Handler C)) (.packet raw) (fun _ _ => True) [] (body E (.packet raw)))
    {s : St} (hm : s ∈ reports (w.of i)) :
    ∃ l, w.of i = l ++ [⟨i, .packet raw, .sendState s, ()⟩] ∧ C (l.map Rec.ev) s := by
  obtain ⟨x, hx, hxr⟩ := List.mem_filterMap.mp hm
  obtain ⟨l₁, l₂, hl⟩ := List.append_of_mem hx
  have hx' : x = ⟨i, .packet raw, .sendState s, ()⟩ := by
    obtain ⟨-, ho⟩ := Follows.once h ht hc rfl
    rw [ho] at hx
    obtain ⟨e, -, rfl⟩ := List.mem_map.mp hx
    obtain ⟨o, r⟩ := e
    cases o <;> simp only [reported?, reduceCtorEq, Option.some.injEq] at hxr
    subst hxr; rfl
  subst hx'
  cases l₂ with
  | nil => exact ⟨l₁, hl, (Hist.once h ht hc rfl hw hl).2⟩
  | cons y l₂ =>
    have := (Hist.once h ht hc rfl hw (l₁ := l₁ ++ [_]) (x := y) (l₂ := l₂) (by simpa using hl)).1
    simp [reported?] at this

macro "handler" "[" xs:Lean.Parser.Tactic.simpLemma,* "]" : tactic => `(tactic| (
  wp_code [Hist.ok_eq, Hist.may_eq, Hist.next_eq, Handler, Facts.may, List.nil_append,
    List.append_assoc, List.cons_append, List.filterMap_append, List.filterMap_cons, List.filterMap_nil,
    observed?, sent?, complaint?, reported?, $xs,*]))

theorem meaning_some {raw : Bytes} {k : Kind} (h : meaning raw = some k) :
    ∃ m, M3UA.parse raw = .ok m ∧ m.version = 1 ∧ m.kind = some k := by
  unfold meaning at h
  cases hp : M3UA.parse raw with
  | ok m =>
    rw [hp] at h
    simp only at h
    split at h
    · rename_i hv
      exact ⟨m, rfl, by rw [← (M3UA.parse_octets hp).1]; exact hv, h⟩
    · cases h
  | _ => rw [hp] at h; cases h

theorem aspUpAck_wire (a : Option Param) : (M3UA.aspUpAck (Msg.AspUpAck.new a none)).wire = message 1 3 4 (presentTlvs [tv a]) := by
  rw [M3UA.wire, ← M3UA.encodes_iff.mp (c17_aspUpAck a none)]; cases a <;> rfl

theorem aspDownAck_wire : (M3UA.aspDownAck (Msg.AspDownAck.new none)).wire = message 1 3 5 [] :=
  (M3UA.encodes_iff.mp (c17_aspDownAck none)).symm

theorem aspActiveAck_wire (a b : Option Param) : (M3UA.aspActiveAck (Msg.AspActiveAck.new a b none)).wire =
    message 1 4 3 (presentTlvs [tv a, tv b]) := by
  rw [M3UA.wire, ← M3UA.encodes_iff.mp (c17_aspActiveAck a b none)]; cases a <;> cases b <;> rfl

theorem aspInactiveAck_wire (a : Option Param) : (M3UA.aspInactiveAck (Msg.AspInactiveAck.new a none)).wire =
    message 1 4 4 (presentTlvs [tv a]) := by
  rw [M3UA.wire, ← M3UA.encodes_iff.mp (c17_aspInactiveAck a none)]; cases a <;> rfl

/-- What has to be shown of the handler of a message of kind `k`. -/
def HandledCall (k : Kind) (d : Option (List UInt8)) (e : CErr) (l : List Ev) (s : St) : Prop :=
  Handled k d e (l.filterMap observed?) (l.filterMap sent?) (l.filterMap complaint?) s

/-- C47: how an ASP message, an Error or a Notify is handled, at the time the handler reports a state to the monitor (which
is its last action). A message not expected in the state the handler observes is reported as unexpected and is
not answered; an expected one is answered as configured. In both cases the state asked for is reported. -/
theorem c47_handled {E : Env} {w : World} (h : Reachable E w) {i : Nat} {t : Thread} (ht : w.threads[i]? = some t)
    {raw : Bytes} (hc : t.gor = .packet raw) {k : Kind} (hk : meaning raw = some k)
    (hk' : (commands k).isSome ∨ k = .error ∨ k = .notify) {s : St} (hm : s ∈ reports (w.of i)) :
    ∃ m, M3UA.parse raw = .ok m ∧
      Handled k (ack E.cfg k) (.unexpectedMessage m) (observes (w.of i)) (sends (w.of i)) (complaints (w.of i)) s := by
  obtain ⟨m, hp, hv, hmk⟩ := meaning_some hk
  refine ⟨m, hp, ?_⟩
  obtain ⟨l, hl, hC⟩ := Handler.conclude h ht hc (C := HandledCall k (ack E.cfg k) (.unexpectedMessage m)) (by
    rw [body, packet_eq]
    simp only [hp]
    cases m <;> simp only [M3UA.kind, Option.some.injEq, reduceCtorEq] at hmk <;> subst hmk <;>
      simp [commands] at hk' <;>
      handler [HandledCall, Handled, expected, ack, commands, aspUpAck_wire, aspDownAck_wire, aspActiveAck_wire,
        aspInactiveAck_wire, hv] <;>
      simp +contextual [sigInfo_std, hv, forall_st, St.asp]) hm
  rw [HandledCall, List.filterMap_map, List.filterMap_map, List.filterMap_map] at hC
  rw [hl, observes, sends, complaints, List.filterMap_append, List.filterMap_append, List.filterMap_append]
  exact (List.append_nil _).symm ▸ (List.append_nil _).symm ▸ (List.append_nil _).symm ▸ hC

/-- C47: a single ASP Active Ack takes a connection from Down to AspActive, for every configuration and in both
modes. (`c47_answered`: and it is answered with an Error message.) -/
theorem c47_single (E : Env) : ∃ w, Reachable E w ∧ w.sh.st = .active ∧ w.sh.handed = true ∧
    receives w.trace = [[1, 0, 4, 3, 0, 0, 0, 8]] := by
  have : ∃ w, Reachable E w ∧ (w.sh.st, w.sh.handed, receives w.trace) = (.active, true, [ackMsg]) := by
    obtain ⟨mode, cfg, hb, ms⟩ := E
    cases mode
    · exact reach_of (cs := opening .client) (by kernel_rfl)
    · exact reach_of (cs := opening .server) (by kernel_rfl)
  obtain ⟨w, hw, he⟩ := this
  simp only [Prod.mk.injEq] at he
  exact ⟨w, hw, he.1, he.2.1, he.2.2⟩

/-! ### C45: heartbeats -/

/-- The bytes of the reply to a heartbeat. -/
theorem heartbeat_wire {raw : Bytes} {m : Msg.Heartbeat} (h : M3UA.parse raw = .ok (.heartbeat m)) :
    (M3UA.heartbeat { m with header := { m.header with typ := 6 } }).wire =
      raw.take 3 ++ [6] ++ (raw.drop 4).take 4 ++ (presentTlvs [tv m.heartbeatData]).flatten := by
  have hr := M3UA.parse_header h
  have hb : (M3UA.heartbeat { m with header := { m.header with typ := 6 } }).bodyBytes =
      (presentTlvs [tv m.heartbeatData]).flatten := by
    cases hd : m.heartbeatData with
    | none => simp [M3UA.bodyBytes, M3UA.wireParams, M3UA.kind, Kind.params, M3UA.field, hd, present, tv, presentTlvs]
    | some p =>
      have := (M3UA.parse_field h rfl (n := .heartbeatData) (by decide) (p := p) (by rw [M3UA.field]; exact hd)).1
      simp [M3UA.bodyBytes, M3UA.wireParams, M3UA.kind, Kind.params, M3UA.field, hd, present, tv, presentTlvs,
        Param.encode_consistent p this]
  rw [M3UA.wire, hb, hr]
  simp only [M3UA.header, Header.head, u32bytes]
  simp

/-- C45: how a Heartbeat is handled: in `AspActive` exactly one message is sent, which repeats the received one with
type 6 (Heartbeat Ack) and the heartbeat data of the last Heartbeat Data parameter; in any other state nothing is
sent and the message is reported as unexpected. -/
theorem c45_heartbeat {E : Env} {w : World} (h : Reachable E w) {i : Nat} {t : Thread} (ht : w.threads[i]? = some t)
    {raw : Bytes} (hc : t.gor = .packet raw) (hk : meaning raw = some .heartbeat) {s : St} (hm : s ∈ reports (w.of i)) :
    ∃ m, M3UA.parse raw = .ok (.heartbeat m) ∧
      Handled .heartbeat (some (raw.take 3 ++ [6] ++ (raw.drop 4).take 4 ++ (presentTlvs [tv m.heartbeatData]).flatten))
        (.unexpectedMessage (.heartbeat m)) (observes (w.of i)) (sends (w.of i)) (complaints (w.of i)) s := by
  obtain ⟨m, hp, hv, hmk⟩ := meaning_some hk
  cases m <;> simp only [M3UA.kind, Option.some.injEq, reduceCtorEq] at hmk
  rename_i m
  refine ⟨m, hp, ?_⟩
  rw [← heartbeat_wire hp]
  obtain ⟨l, hl, hC⟩ := Handler.conclude h ht hc (C := HandledCall .heartbeat
      (some (M3UA.heartbeat { m with header := { m.header with typ := 6 } }).wire) (.unexpectedMessage (.heartbeat m))) (by
    rw [body, packet_eq]
    simp only [hp]
    handler [HandledCall, Handled, expected, commands, hv]
    simp +contextual [sigInfo_std]) hm
  rw [HandledCall, List.filterMap_map, List.filterMap_map, List.filterMap_map] at hC
  rw [hl, observes, sends, complaints, List.filterMap_append, List.filterMap_append, List.filterMap_append]
  exact (List.append_nil _).symm ▸ (List.append_nil _).symm ▸ (List.append_nil _).symm ▸ hC

/-- C45: in particular the heartbeat with data `d` (at most 65531 bytes) is understood, and its acknowledgement is
the Heartbeat Ack message with the same data. -/
theorem c45_data {d : Bytes} (hd : d.length ≤ maxValue) : let raw := message 1 3 3 [tlv 9 d]
    meaning raw = some .heartbeat ∧ ∀ m, M3UA.parse raw = .ok (.heartbeat m) →
      raw.take 3 ++ [6] ++ (raw.drop 4).take 4 ++ (presentTlvs [tv m.heartbeatData]).flatten =
        message 1 3 6 [tlv 9 d] := by
  intro raw
  have hseq : ParamSeq (raw.drop 8) [(9, d)] := by
    have := ParamSeq.cons 9 d (List.replicate (pad d.length) 0) [] [] (by omega) hd (by simp) .nil
    have e : raw.drop 8 = tlv 9 d := by simp [raw, message, be32]
    rw [e, tlv]
    simpa using this
  have hl : 8 ≤ raw.length := by simp [raw, message, be32]
  have ho : raw.getD 2 0 = 3 ∧ raw.getD 3 0 = 3 ∧ raw.getD 0 0 = 1 := ⟨rfl, rfl, rfl⟩
  have hc := c24_parse raw hl .heartbeat (by rw [ho.1, ho.2.1]; rfl) _ hseq
  rcases hc with ⟨_, m, hp, hk, _, hf⟩ | ⟨⟨q, hq, hne⟩, _⟩
  · refine ⟨by rw [meaning, hp]; simp only [ho.2.2, if_true]; exact hk, ?_⟩
    intro m' hp'
    rw [hp] at hp'
    cases hp'
    have := hf .heartbeatData (by decide)
    have hlv : lastValue .heartbeatData [(9, d)] = some d := rfl
    rw [hlv] at this
    obtain ⟨p, hp1, hp2, hp3, -⟩ := this
    have hp1 : m'.heartbeatData = some p := hp1
    rw [hp1]
    simp only [tv, Option.map_some, presentTlvs, hp2, hp3, show PName.heartbeatData.tag = 9 from rfl]
    simp [raw, message, be32]
  · simp only [List.mem_singleton] at hq
    subst hq
    exact absurd rfl (hne .heartbeatData (by decide))

/-- For `c45_heartbeat` and `c47_single`: A heartbeat with data `[7]` in `AspActive`. -/
example : ∃ w, Reachable E₀ w ∧ (w.threads[5]?.map Thread.gor, reports (w.of 5), sends (w.of 5)) =
    (some (.packet (message 1 3 3 [tlv 9 [7]])), [.active], [⟨message 1 3 6 [tlv 9 [7]], 0, 3, some 16⟩]) :=
  reach_of (cs := opening .client ++ [.deliver (message 1 3 3 [tlv 9 [7]])] ++ go 2 2 ++ [.loop 2] ++ go 5 3 ++
    [.run 5 (.std 16), .run 5 (.std 0), .sync 5 2]) (by kernel_rfl)

end M3.Conn
