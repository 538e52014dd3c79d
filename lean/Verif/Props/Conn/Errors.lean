import Verif.Lemmas.Conn.Round
import Verif.Lemmas.Conn.Sched
import Verif.Spec.Handling
import Verif.Props.MessageLayout

/- How errors are answered: C44, C63. -/

set_option autoImplicit false
set_option linter.unusedSimpArgs false

namespace M3.Conn

open Spec

theorem reply_wire (E : Env) (bytes : M3UA → Bytes) (hb : ∀ m : M3UA, m.Encodes (bytes m)) (e : CErr) :
    errorMessage E.cfg bytes e = (reply E e).map M3UA.wire := by
  have hb' : ∀ m, bytes m = m.wire := fun m => M3UA.encodes_iff.mp (hb m)
  have key : ∀ code rtCtx nwApr apc info, (M3UA.error (Msg.Error.new code rtCtx nwApr apc info)).wire =
      message 1 0 0 (presentTlvs [tv code, tv rtCtx, tv nwApr, tv apc, tv info]) := fun code rtCtx nwApr apc info =>
    (M3UA.encodes_iff.mp (c17_error code rtCtx nwApr apc info)).symm
  have u32 : ∀ v : UInt32, tv (some (Param.newErrorCode v)) = some (12, be32 v.toNat) := fun v => by
    simp [tv, Param.newErrorCode, Param.newUint32Val, Param.setLength, u32bytes_spec, Tag.errorCode]
  have apc : ∀ v : UInt32, tv (some (Param.newAffectedPointCode [v])) = some (18, be32 v.toNat) := fun v => by
    simp [tv, Param.newAffectedPointCode, Param.newMultiUint32Val, Param.setLength, u32bytes_spec, Tag.affectedPointCode]
  have diag : ∀ d, tv (some (Param.newDiagnosticInformation d)) = some (7, d) := fun d => by
    simp [tv, Param.newDiagnosticInformation, Param.newVariableLenVal, Param.setLength, Tag.diagnosticInformation]
  cases e <;> simp only [errorMessage, reply, Option.map_some, Option.map_none, key, u32, apc, diag, hb'] <;>
    first | rfl | (cases E.cfg.routingContexts <;> cases E.cfg.networkAppearance <;> rfl)

/-- A round that starts with an error. -/
def ErrRound (E : Env) : MonEv → List Ev → Prop → Prop
  | .err e, l, final => Answered ((reply E e).map M3UA.wire) l final
  | _, _, _ => True

theorem errRounds (E : Env) : Rounds E (ErrRound E) := by
  show WP _ _ _ _ (monitorLoop E)
  unfold monitorLoop
  rw [wp_bind]
  refine ⟨trivial, fun ev _ => ?_⟩
  rw [wp_ret, Hist.next_eq, List.nil_append]
  cases ev with
  | ctx =>
    wp_code [Hist.ok_eq, Hist.may_eq, Hist.next_eq, Facts.may, List.append_assoc, List.cons_append, List.nil_append,
      round_cons, ErrRound]
    simp +contextual
  | err e =>
    cases hr : reply E e with
    | none =>
      wp_code [Hist.ok_eq, Hist.may_eq, Hist.next_eq, Facts.may, List.append_assoc, List.cons_append, List.nil_append,
        round_cons, ErrRound, hr, Option.map_none, Answered]
      simp +contextual [others, sent?, closes, List.filter, List.filterMap_cons, sigInfo_std]
    | some m =>
      wp_code [Hist.ok_eq, Hist.may_eq, Hist.next_eq, Facts.may, List.append_assoc, List.cons_append, List.nil_append,
        round_cons, ErrRound, hr, Option.map_some, Answered, Option.some.injEq, forall_eq']
      simp +contextual [others, sent?, closes, List.filter, List.filterMap_cons, sigInfo_std]
  | state s =>
    obtain ⟨mode, cfg, hb, ms⟩ := E
    cases mode <;> cases s <;>
    wp_code [Hist.ok_eq, Hist.may_eq, Hist.next_eq, Facts.may, List.append_assoc, List.cons_append, List.nil_append,
      round_cons, ErrRound] <;>
    simp +contextual

/-- C44: an error reported by any goroutine is picked up by the monitor at once, and by nobody else. -/
theorem c44_handoff {E : Env} {w : World} (h : Reachable E w) {l₁ l₂ : List Rec} {x : Rec} {e : CErr}
    (hl : w.trace = l₁ ++ x :: l₂) (hx : complaint? x.ev = some e) :
    ∃ l₃, l₂ = ⟨2, .monitorLoop, .monSelect, .err e⟩ :: l₃ := by
  have hx' : x.ev.op = .sendErr e := by
    obtain ⟨i, g, o, r⟩ := x
    cases o <;> simp only [complaint?, reduceCtorEq, Option.some.injEq] at hx
    rw [hx]
  obtain ⟨y, l₃, h1, h2⟩ := Role.handoff h hl (.inl ⟨e, hx'⟩)
  exact ⟨l₃, by rw [h1, h2.1 e hx']⟩

/-- C44: what the monitor does about an error it has picked up, before it turns to anything else: it sends the
Error message of `errorMessage` once, on stream 0; if that fails, or if there is no Error message for this error, it closes the
connection and never does anything else. -/
theorem c44_reply {E : Env} {w : World} (h : Reachable E w) {i : Nat} {g : Gor} {e : CErr} {l₁ l₂ : List Rec}
    (hl : w.of i = l₁ ++ ⟨i, g, .monSelect, .err e⟩ :: l₂) (bytes : M3UA → Bytes) (hb : ∀ m : M3UA, m.Encodes (bytes m)) :
    ∃ now later, l₂ = now ++ later ∧ (∀ y l, later = y :: l → y.ev.op = .monSelect) ∧
      (∀ y ∈ now, y.ev.op ≠ .monSelect) ∧
      Answered (errorMessage E.cfg bytes e) (now.map Rec.ev) (later = []) := by
  obtain ⟨now, later, h1, h2, h3, h4⟩ := (errRounds E).at h hl
  rw [reply_wire E bytes hb]
  refine ⟨now, later, h1, h2, h3, ?_⟩
  rcases h4 with ⟨rfl, h4⟩ | h4
  · simpa [ErrRound] using h4
  · have h4 : Answered ((reply E e).map M3UA.wire) (now.map Rec.ev) False := h4
    cases hr : reply E e <;> rw [hr] at h4 <;>
      simp only [Option.map_some, Option.map_none, Answered, false_and, or_false] at h4 ⊢
    exact .inl h4

/-- For `c44_handoff` and `c44_reply`: A DAUD (destination state audit) is not supported: code 4 with the message as diagnostic information. -/
example : ∃ w, Reachable E₀ w ∧ sends (w.of 2) =
    [⟨message 1 3 1 [], 0, 3, some 0⟩, ⟨message 1 0 0 [tlv 12 (be32 4), tlv 7 (message 1 2 3 [])], 0, 3, some 0⟩] :=
  reach_of (cs := boot .client ++ [.deliver (message 1 2 3 [])] ++ go 2 2 ++ [.loop 2] ++ go 4 1 ++ [.sync 4 2] ++ go 2 2)
    (by kernel_rfl)

/-- C63: when the monitor picks up the expiry of the heartbeat timer it closes the connection and does nothing
else, in particular it neither reads nor writes. -/
theorem c63_expired {E : Env} {w : World} (h : Reachable E w) {i : Nat} {g : Gor} {l₁ l₂ : List Rec}
    (hl : w.of i = l₁ ++ ⟨i, g, .monSelect, .err .heartbeatExpired⟩ :: l₂) :
    sends l₂ = [] ∧ closes (others (l₂.map Rec.ev)) ∧ ∀ y ∈ l₂, Spec.isRead y.ev = false := by
  obtain ⟨now, later, rfl, -, -, h3, h4, h5⟩ := c44_reply h hl M3UA.wire M3UA.encodes_wire
  subst h3
  rw [List.append_nil]
  refine ⟨by rw [sends, ← h4, List.filterMap_map]; rfl, h5, fun y hy => ?_⟩
  cases hr : Spec.isRead y.ev with
  | false => rfl
  | true =>
    exfalso
    obtain ⟨tid, g', o, r⟩ := y
    cases o <;> simp only [Spec.isRead, Bool.false_eq_true] at hr
    rename_i n
    have hm : Op.read n ∈ others (now.map Rec.ev) := by
      rw [others, List.mem_filter]
      exact ⟨List.mem_map.mpr ⟨_, List.mem_map.mpr ⟨_, hy, rfl⟩, rfl⟩, rfl⟩
    rcases h5 with h5 | h5 <;> have := h5.subset hm <;> simp at this

/-- A heartbeat is sent, its timer expires, the monitor closes the connection. -/
example : ∃ w, Reachable E₁ w ∧ (w.sh.sctpClosed = true ∧ w.threads.length = 6) ∧
    (others ((w.of 2).map Rec.ev)).drop 18 = [.monSelect, .lock, .getSt, .closeEst, .closeAck, .closeData, .putSt .down,
      .sctpClose, .unlock, .broadcast] := by
  obtain ⟨w, h1, h2⟩ := reach_of (E := E₁) (f := fun w => (w.sh.sctpClosed, w.threads.length,
      (others ((w.of 2).map Rec.ev)).drop 18))
    (cs := openingBeat ++ go 3 1 ++ beat (List.replicate 128 0) ++ [.run 3 .timer, .deliver [1, 0, 0, 0, 0, 0, 0, 8]] ++ go 2 2
      ++ [.loop 2, .sync 3 2] ++ go 2 9)
    (v := (true, 6, [.monSelect, .lock, .getSt, .closeEst, .closeAck, .closeData, .putSt .down,
      .sctpClose, .unlock, .broadcast])) (by kernel_rfl)
  simp only [Prod.mk.injEq] at h2
  exact ⟨w, h1, ⟨h2.1, h2.2.1⟩, h2.2.2⟩

/-- C47: a single ASP Active Ack takes a connection from Down to AspActive, whatever the configuration and the mode, although it is answered with an
Error message with code 6 (unexpected message), the last message that was sent. -/
theorem c47_answered (E : Env) : ∃ w, Reachable E w ∧ w.sh.st = .active ∧ w.sh.handed = true ∧ receives w.trace = [[1, 0, 4, 3, 0, 0, 0, 8]] ∧
    ((sends w.trace).getLast?.map Sent.bytes) = some (message 1 0 0 (presentTlvs [some (12, be32 6), tv E.cfg.routingContexts,
      tv E.cfg.networkAppearance, some (18, be32 E.cfg.originatingPointCode.toNat)])) := by
  obtain ⟨a, ha⟩ : ∃ a, M3UA.parse ackMsg = .ok a := ⟨_, rfl⟩
  have hr := reply_wire E M3UA.wire (fun m => M3UA.encodes_iff.mpr rfl) (.unexpectedMessage a)
  rw [errorMessage] at hr
  rw [hr]
  have : ∃ w, Reachable E w ∧ (w.sh.st, w.sh.handed, receives w.trace, (sends w.trace).getLast?.map Sent.bytes) =
      (.active, true, [ackMsg], (reply E (.unexpectedMessage a)).map M3UA.wire) := by
    obtain ⟨mode, cfg, hb, ms⟩ := E
    cases mode
    · exact reach_of (cs := opening .client) (by kernel_rfl)
    · exact reach_of (cs := opening .server) (by kernel_rfl)
  obtain ⟨w, hw, he⟩ := this
  simp only [Prod.mk.injEq] at he
  exact ⟨w, hw, he.1, he.2.1, he.2.2.1, he.2.2.2⟩

/-- For the client `E₀`, whose configuration has no routing contexts and no network appearance. -/
example : message 1 0 0 (presentTlvs [some (12, be32 6), tv E₀.cfg.routingContexts, tv E₀.cfg.networkAppearance,
    some (18, be32 E₀.cfg.originatingPointCode.toNat)]) = [1, 0, 0, 0, 0, 0, 0, 24, 0, 12, 0, 8, 0, 0, 0, 6, 0, 18, 0, 8, 0, 0, 0, 1] := by decide +kernel

end M3.Conn
