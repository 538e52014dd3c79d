import Verif.Lemmas.Conn.Disc
import Verif.Lemmas.Messages
import Verif.Lemmas.ParamKinds
import Verif.Props.Messages
import Verif.Props.ParamKinds

/- Simplified forms of the functions of `Conn`: marshalling never fails, parsing never panics. -/

set_option autoImplicit false

namespace M3

/-- The bytes a message marshals to. -/
def M3UA.wire (m : M3UA) : Bytes := m.header.head ++ m.bodyBytes

theorem M3UA.encodes_wire (m : M3UA) : m.Encodes m.wire := M3UA.encodes_iff.mpr rfl

theorem M3UA.wire_length (m : M3UA) : m.wire.length = m.marshalLen := by
  rw [M3UA.marshalLen_eq, M3UA.wire]
  simp [Header.head]; omega

/-- A parsed message remembers the header it was parsed from. -/
theorem M3UA.parse_header {b : Bytes} {m : M3UA} (h : M3UA.parse b = .ok m) :
    b = m.header.head ++ m.header.payload := by
  have h8 := (parse_kind b m h).1
  rw [M3UA.parse_long b (by omega)] at h
  cases hs : M3UA.selected (b.getD 2 0) (b.getD 3 0) with
  | none =>
    rw [hs] at h
    rcases M3UA.unmarshal_generic Msg.Generic.zero b with ⟨_, h'⟩ | ⟨_, hd, _, hb, ⟨e, he, h'⟩ | ⟨_, _, h'⟩⟩ <;>
      rw [M3UA.empty, h'] at h <;> cases h
    exact hb
  | some k =>
    rw [hs] at h
    rcases M3UA.unmarshal_typed _ k (M3UA.empty_kind _) b with ⟨_, h'⟩ | ⟨_, hd, _, hb, h'⟩
    · rw [h'] at h; cases h
    · rcases h' with ⟨_, he, h'⟩ | ⟨_, _, ⟨_, m', h', hk, hh, _⟩ | ⟨_, _, he, h'⟩⟩
      · rw [h'] at h; cases h
      · rw [h'] at h; cases h; rw [hh]; exact hb
      · rw [h'] at h; cases h

theorem M3UA.parse_octets {b : Bytes} {m : M3UA} (h : M3UA.parse b = .ok m) :
    b.getD 0 0 = m.version ∧ b.getD 2 0 = m.header.cls ∧ b.getD 3 0 = m.header.typ := by
  have := M3UA.parse_header h
  rw [this]
  cases m <;> exact ⟨rfl, rfl, rfl⟩

/-- Parameters of a parsed message have the tag of their field and a matching length. -/
theorem M3UA.parse_field {b : Bytes} {m : M3UA} (h : M3UA.parse b = .ok m) {k : Spec.Kind} (hk : m.kind = some k)
    {n : Spec.PName} (hn : n ∈ k.params) {p : Param} (hp : m.field n = some p) :
    p.Consistent ∧ p.tag = UInt16.ofNat n.tag := by
  obtain ⟨h8, hs⟩ := parse_kind b m h
  rw [M3UA.parse_long b (by omega), ← hs, hk] at h
  rcases M3UA.unmarshal_typed _ k (M3UA.empty_kind _) b with ⟨_, h'⟩ | ⟨_, hd, _, _, h'⟩
  · rw [h'] at h; cases h
  · rcases h' with ⟨_, _, h'⟩ | ⟨ps, h1, ⟨_, m', h', _, _, _, hf⟩ | ⟨_, _, _, h'⟩⟩
    · rw [h'] at h; cases h
    · rw [h'] at h; cases h
      rw [hf n hn] at hp
      have he : (M3UA.empty (some k)).field n = none := by cases k <;> cases n <;> rfl
      rw [he, Option.or_none] at hp
      have := Codec.lastWith_mem hp
      exact ⟨parseMulti_consistent h1 p this.1, this.2⟩
    · rw [h'] at h; cases h

theorem M3UA.wire_octets (m : M3UA) :
    m.wire.getD 0 0 = m.version ∧ m.wire.getD 2 0 = m.header.cls ∧ m.wire.getD 3 0 = m.header.typ := by
  cases m <;> exact ⟨rfl, rfl, rfl⟩

namespace Conn

/-- The `SndRcvInfo` with which `WriteSignal` sends `m`. -/
def sigInfo (m : M3UA) (i : Info) : Info := if m.messageClass ≠ 1 then { i with stream := 0 } else i

theorem writeSignal_eq (m : M3UA) : writeSignal m =
    .op .info fun i => .op (.write m.wire (sigInfo m i)) fun r =>
      match r with
      | none => .ret (.error .sctp)
      | some nn => .ret (.ok (m.marshalLen + nn)) := by
  have h := M3UA.marshalTo_exact m (Slice.make m.marshalLen) (by simp [Slice.WF, Slice.make])
  rw [if_neg (by simp [Slice.make])] at h
  unfold writeSignal
  simp only [h]
  have hw : ({ Slice.make m.marshalLen with
      mem := writeAt (Slice.make m.marshalLen).mem (Slice.make m.marshalLen).off
        (m.header.head ++ m.bodyBytes) } : Slice).bytes = m.wire := by
    simp only [Slice.make, Slice.bytes]
    rw [Param.writeAt_replicate_zero, ← M3UA.wire_length, List.drop_zero, List.take_of_length_le (by simp [M3UA.wire])]
    simp [M3UA.wire]
  rw [hw]
  show Prog.op _ _ = _
  congr 1; funext i
  show Prog.op _ _ = _
  congr 1; funext r
  cases r <;> rfl

theorem writeOnly_eq (m : M3UA) : writeOnly m =
    .op .info fun i => .op (.write m.wire (sigInfo m i)) fun r =>
      match r with
      | none => .ret (some .sctp)
      | some _ => .ret none := by
  unfold writeOnly
  rw [writeSignal_eq]
  show Prog.op _ _ = _
  congr 1; funext i
  show Prog.op _ _ = _
  congr 1; funext r
  cases r <;> rfl

theorem first40Octets_eq (m : M3UA) : first40Octets m = .ret (m.wire.take 40) := by
  unfold first40Octets
  rw [M3UA.marshalBinary_exact]
  show (if (m.wire).length < 40 then Prog.ret m.wire else .ret (m.wire.take 40)) = _
  split
  · rw [List.take_of_length_le (by omega)]
  · rfl

/-- `errorReply` without effects. -/
def reply (E : Env) : CErr → Option M3UA
  | .invalidVersion _ => some (.error (Msg.Error.new (some (Param.newErrorCode 1)) none none none none))
  | .unsupportedClass m => some (.error (Msg.Error.new (some (Param.newErrorCode 3)) none none none
      (some (Param.newDiagnosticInformation (m.wire.take 40)))))
  | .unsupportedMessage m => some (.error (Msg.Error.new (some (Param.newErrorCode 4)) none none none
      (some (Param.newDiagnosticInformation (m.wire.take 40)))))
  | .unexpectedMessage _ => some (.error (Msg.Error.new (some (Param.newErrorCode 6)) E.cfg.routingContexts
      E.cfg.networkAppearance (some (Param.newAffectedPointCode [E.cfg.originatingPointCode])) none))
  | .invalidStream _ => some (.error (Msg.Error.new (some (Param.newErrorCode 9)) none none none none))
  | .aspIDRequired => some (.error (Msg.Error.new (some (Param.newErrorCode 0xe)) none none none none))
  | _ => none

theorem errorReply_eq (E : Env) (e : CErr) : errorReply E e = .ret (reply E e) := by
  cases e <;> simp only [errorReply, first40Octets_eq] <;> rfl

theorem handleErrors_eq (E : Env) (e : CErr) : handleErrors E e =
    match reply E e with
    | none => .ret (some e)
    | some m => writeOnly m := by
  unfold handleErrors
  rw [errorReply_eq]
  show (match reply E e with | none => _ | some m => _) = _
  cases reply E e <;> rfl

/-- The DATA message of `Write` and `WritePD`. -/
def dataMsg (E : Env) (pd : Option Param) : M3UA :=
  .data (Msg.Data.new E.cfg.networkAppearance E.cfg.routingContexts pd E.cfg.correlationID)

theorem writeData_eq (E : Env) (pd : Option Param) (stream : UInt16) : writeData E pd stream =
    .op .info fun i => .op (.write (dataMsg E pd).wire { i with stream := stream }) fun r =>
      match r with
      | none => .ret (.fail .sctp)
      | some n => .ret (.wrote (n + (dataMsg E pd).wire.length)) := by
  have h := M3UA.marshalBinary_exact (dataMsg E pd)
  have h' : ∃ x, (Msg.Data.new E.cfg.networkAppearance E.cfg.routingContexts pd E.cfg.correlationID).marshalBinary
      = .ok (x, (dataMsg E pd).wire) := by
    simp only [M3UA.marshalBinary, dataMsg] at h
    cases hx : (Msg.Data.new E.cfg.networkAppearance E.cfg.routingContexts pd E.cfg.correlationID).marshalBinary with
    | ok y =>
      rw [hx] at h
      simp only [Res.bind_ok, Res.ok.injEq, Prod.mk.injEq] at h
      exact ⟨y.1, by rw [M3UA.wire, dataMsg, ← h.2]⟩
    | err e => rw [hx] at h; cases h
    | panic => rw [hx] at h; cases h
    | diverge => rw [hx] at h; cases h
  obtain ⟨x, hx⟩ := h'
  unfold writeData
  simp only [hx]
  show Prog.op _ _ = _
  congr 1; funext i
  show Prog.op _ _ = _
  congr 1; funext r
  cases r <;> rfl

/-- The Protocol Data parameter of `Write`. -/
def userPD (E : Env) (b : Bytes) : Param :=
  Param.setLength ⟨Tag.protocolData, 0, ProtocolDataPayload.encode ⟨E.cfg.originatingPointCode,
    E.cfg.destinationPointCode, E.cfg.serviceIndicator, E.cfg.networkIndicator, E.cfg.messagePriority,
    E.cfg.signalingLinkSelection, b⟩⟩

theorem writeToStream_eq (E : Env) (b : Bytes) (stream : UInt16) :
    writeToStream E b stream = writePDToStream E (some (userPD E b)) stream := by
  unfold writeToStream writePDToStream
  rw [Param.newProtocolData_eq]
  rfl

theorem packet_eq (E : Env) (raw : Bytes) : packet E raw =
    match M3UA.parse raw with
    | .ok m => handleSignals E m
    | _ => .ret () := by
  unfold packet
  rcases c20_parse raw with ⟨m, h⟩ | ⟨e, h, -⟩ <;> rw [h] <;> rfl

section
variable {σ : Type} {D : Disc σ} {g : Gor} {α : Type}

theorem forall_option {α : Type} {p : Option α → Prop} : (∀ r, p r) ↔ p none ∧ ∀ n, p (some n) := by
  constructor
  · exact fun h => ⟨h none, fun n => h _⟩
  · rintro ⟨h1, h2⟩ (_ | n)
    · exact h1
    · exact h2 n

theorem wp_writeOnly {Q : σ → Option CErr → Prop} {s : σ} {m : M3UA} :
    WP D g Q s (writeOnly m) ↔
      D.ok g s .info ∧ ∀ i, D.may g s .info i →
        D.ok g (D.next g s .info i) (.write m.wire (sigInfo m i)) ∧
        (D.may g (D.next g s .info i) (.write m.wire (sigInfo m i)) none →
          Q (D.next g (D.next g s .info i) (.write m.wire (sigInfo m i)) none) (some .sctp)) ∧
        ∀ n, D.may g (D.next g s .info i) (.write m.wire (sigInfo m i)) (some n) →
          Q (D.next g (D.next g s .info i) (.write m.wire (sigInfo m i)) (some n)) none := by
  rw [writeOnly_eq]
  simp only [wp_op, forall_option, wp_ret]

theorem wp_writeSignal {Q : σ → Except CErr Nat → Prop} {s : σ} {m : M3UA} :
    WP D g Q s (writeSignal m) ↔
      D.ok g s .info ∧ ∀ i, D.may g s .info i →
        D.ok g (D.next g s .info i) (.write m.wire (sigInfo m i)) ∧
        (D.may g (D.next g s .info i) (.write m.wire (sigInfo m i)) none →
          Q (D.next g (D.next g s .info i) (.write m.wire (sigInfo m i)) none) (.error .sctp)) ∧
        ∀ n, D.may g (D.next g s .info i) (.write m.wire (sigInfo m i)) (some n) →
          Q (D.next g (D.next g s .info i) (.write m.wire (sigInfo m i)) (some n)) (.ok (m.marshalLen + n)) := by
  rw [writeSignal_eq]
  simp only [wp_op, forall_option, wp_ret]

theorem wp_writeData {Q : σ → ApiRes → Prop} {s : σ} {E : Env} {pd : Option Param} {stream : UInt16} :
    WP D g Q s (writeData E pd stream) ↔
      D.ok g s .info ∧ ∀ i, D.may g s .info i →
        D.ok g (D.next g s .info i) (.write (dataMsg E pd).wire { i with stream := stream }) ∧
        (D.may g (D.next g s .info i) (.write (dataMsg E pd).wire { i with stream := stream }) none →
          Q (D.next g (D.next g s .info i) (.write (dataMsg E pd).wire { i with stream := stream }) none)
            (.fail .sctp)) ∧
        ∀ n, D.may g (D.next g s .info i) (.write (dataMsg E pd).wire { i with stream := stream }) (some n) →
          Q (D.next g (D.next g s .info i) (.write (dataMsg E pd).wire { i with stream := stream }) (some n))
            (.wrote (n + (dataMsg E pd).wire.length)) := by
  rw [writeData_eq]
  simp only [wp_op, forall_option, wp_ret]

/-- Error replies are written like any other message. -/
theorem wp_handleErrors {Q : σ → Option CErr → Prop} {s : σ} {E : Env} {e : CErr} :
    WP D g Q s (handleErrors E e) ↔
      (reply E e = none → Q s (some e)) ∧ (∀ m, reply E e = some m → WP D g Q s (writeOnly m)) := by
  rw [handleErrors_eq]
  cases reply E e <;> simp [wp_ret]

end

end Conn
end M3

namespace M3.Conn

theorem forall_monEv {p : MonEv → Prop} : (∀ r, p r) ↔ p .ctx ∧ (∀ e, p (.err e)) ∧
    p (.state .down) ∧ p (.state .inactive) ∧ p (.state .active) ∧ p (.state .cdi) ∧ p (.state .ri) := by
  constructor
  · exact fun h => ⟨h _, fun _ => h _, h _, h _, h _, h _, h _⟩
  · rintro ⟨h1, h2, h3, h4, h5, h6, h7⟩ (_ | e | (_ | _ | _ | _ | _)) <;> first | assumption | exact h2 e

theorem forall_ackEv {p : AckEv → Prop} : (∀ r, p r) ↔ p .ctx ∧ p .ack ∧ p .closed ∧ p .timer := by
  constructor
  · exact fun h => ⟨h _, h _, h _, h _⟩
  · rintro ⟨h1, h2, h3, h4⟩ (_ | _ | _ | _) <;> assumption

theorem forall_estEv {p : EstEv → Prop} : (∀ r, p r) ↔ p .ok ∧ p .closed ∧ p .timeout := by
  constructor
  · exact fun h => ⟨h _, h _, h _⟩
  · rintro ⟨h1, h2, h3⟩ (_ | _ | _) <;> assumption

theorem forall_bool {p : Bool → Prop} : (∀ r, p r) ↔ p false ∧ p true := by
  constructor
  · exact fun h => ⟨h _, h _⟩
  · rintro ⟨h1, h2⟩ (_ | _) <;> assumption

theorem forall_unit {p : Unit → Prop} : (∀ r, p r) ↔ p () := ⟨fun h => h _, fun h _ => h⟩

theorem forall_empty {p : Empty → Prop} : (∀ r, p r) ↔ True := ⟨fun _ => trivial, fun _ r => nomatch r⟩

theorem forall_st {p : St → Prop} : (∀ r, p r) ↔ p .down ∧ p .inactive ∧ p .active ∧ p .cdi ∧ p .ri := by
  constructor
  · exact fun h => ⟨h _, h _, h _, h _, h _⟩
  · rintro ⟨h1, h2, h3, h4, h5⟩ (_ | _ | _ | _ | _) <;> assumption

section
variable {σ : Type} {D : Disc σ} {g : Gor}

/-- A handler: its outcome is reported, then the goroutine goes on. -/
theorem wp_report {Q : σ → Unit → Prop} {s : σ} {h : Prog (Option CErr)} :
    WP D g Q s (report h) ↔ WP D g (fun s' r => match r with
      | some e => D.ok g s' (.sendErr e) ∧ (D.may g s' (.sendErr e) () → Q (D.next g s' (.sendErr e) ()) ())
      | none => Q s' ()) s h := by
  unfold report
  rw [wp_bind]
  constructor <;> refine fun h => wp_mono ?_ h <;> intro s' r hr <;> cases r <;> simpa only [act, wp_op, wp_ret, wp_pure, forall_unit] using hr

end

/-- The check of `handleHeartbeatAck`: same length and same bytes. -/
def ackMatches (p : Param) (mine : Bytes) : Bool :=
  match p.heartbeatData with
  | .ok d => d.length == mine.length && sameBytes d mine
  | _ => false

theorem handleHeartbeatAck_eq (m : Msg.HeartbeatAck) : handleHeartbeatAck m =
    .op .state fun s => if s ≠ .active then .ret (some (.unexpectedMessage (.heartbeatAck m))) else
      .op .getBeat fun mine => match m.heartbeatData with
        | none => crash
        | some p => .ret (if ackMatches p mine then none else some (.unexpectedMessage (.heartbeatAck m))) := by
  unfold handleHeartbeatAck
  show Prog.op _ _ = _
  congr 1; funext s
  show (if _ then _ else _ : Prog (Option CErr)) = _
  split
  · rfl
  · show Prog.op _ _ = _
    congr 1; funext mine
    cases m.heartbeatData with
    | none => rfl
    | some p =>
      have h : ∃ d, p.heartbeatData = .ok d := by
        unfold Param.heartbeatData; split <;> exact ⟨_, rfl⟩
      obtain ⟨d, h⟩ := h
      simp only [ackMatches, h, Prog.bind]
      by_cases hl : d.length = mine.length <;> by_cases hs : sameBytes d mine = true <;> simp [hl, hs] <;> rfl

/-- The payload of a Protocol Data parameter, if it can be decoded. -/
def payloadOf (p : Param) : Option ProtocolDataPayload :=
  match p.protocolData with
  | .ok pd => some pd
  | _ => none

theorem handleData_eq (m : Msg.Data) : handleData m =
    .op .state fun s => if s ≠ .active then .op (.sendErr (.unexpectedMessage (.data m))) .ret else
      match m.protocolData with
        | none => crash
        | some p => match payloadOf p with
          | some pd => .op (.sendData pd) .ret
          | none => .op (.sendErr .failedToPeelOff) .ret := by
  unfold handleData
  show Prog.op _ _ = _
  congr 1; funext s
  show (if _ then _ else _ : Prog Unit) = _
  split
  · rfl
  · cases m.protocolData with
    | none => rfl
    | some p =>
      have h : (∃ d, p.protocolData = .ok d) ∨ ∃ e, p.protocolData = .err e := by
        unfold Param.protocolData; split
        · exact .inr ⟨_, rfl⟩
        · rcases c13_parse p.data with ⟨-, h⟩ | ⟨-, pd, h, -⟩
          · exact .inr ⟨_, h⟩
          · exact .inl ⟨_, h⟩
      rcases h with ⟨d, h⟩ | ⟨e, h⟩ <;> simp only [payloadOf, h] <;> rfl

theorem wp_handleHeartbeatAck {σ : Type} {D : Disc σ} {g : Gor} {Q : σ → Option CErr → Prop} {s : σ}
    {m : Msg.HeartbeatAck} : WP D g Q s (handleHeartbeatAck m) ↔
      D.ok g s .state ∧ ∀ st, D.may g s .state st →
        (st ≠ .active → Q (D.next g s .state st) (some (.unexpectedMessage (.heartbeatAck m)))) ∧
        (st = .active → D.ok g (D.next g s .state st) .getBeat ∧
          ∀ b, D.may g (D.next g s .state st) .getBeat b →
            (m.heartbeatData = none → D.ok g (D.next g (D.next g s .state st) .getBeat b) .crash) ∧
            (∀ p, m.heartbeatData = some p →
              (ackMatches p b = true → Q (D.next g (D.next g s .state st) .getBeat b) none) ∧
              (ackMatches p b = false → Q (D.next g (D.next g s .state st) .getBeat b)
                (some (.unexpectedMessage (.heartbeatAck m)))))) := by
  rw [handleHeartbeatAck_eq]
  simp only [wp_op, wp_ite, wp_ret, ne_eq, Decidable.not_not]
  cases m.heartbeatData with
  | none => simp [wp_crash]
  | some p =>
    refine and_congr Iff.rfl (forall_congr' fun st => imp_congr Iff.rfl (and_congr Iff.rfl
      (imp_congr Iff.rfl (and_congr Iff.rfl (forall_congr' fun b => imp_congr Iff.rfl ?_)))))
    cases h : ackMatches p b <;> simp [wp_ret, h]

theorem wp_handleData {σ : Type} {D : Disc σ} {g : Gor} {Q : σ → Unit → Prop} {s : σ}
    {m : Msg.Data} : WP D g Q s (handleData m) ↔
      D.ok g s .state ∧ ∀ st, D.may g s .state st →
        (st ≠ .active → WP D g Q (D.next g s .state st) (act (.sendErr (.unexpectedMessage (.data m))))) ∧
        (st = .active →
            (m.protocolData = none → D.ok g (D.next g s .state st) .crash) ∧
            (∀ p, m.protocolData = some p →
              (∀ pd, payloadOf p = some pd → WP D g Q (D.next g s .state st) (act (.sendData pd))) ∧
              (payloadOf p = none → WP D g Q (D.next g s .state st) (act (.sendErr .failedToPeelOff))))) := by
  rw [handleData_eq]
  simp only [wp_op, wp_ite, wp_ret, ne_eq, Decidable.not_not, act]
  cases m.protocolData with
  | none => simp [wp_crash]
  | some p => cases h : payloadOf p <;> simp [wp_ret, wp_op, h]

theorem sigInfo_std (m : M3UA) : sigInfo m ⟨3, 0⟩ = ⟨3, 0⟩ := by unfold sigInfo; split <;> rfl

open Lean Parser Tactic in
/-- Unfold `WP` over code. -/
macro "wp_simp" "[" xs:simpLemma,* "]" : tactic =>
  `(tactic| simp only [wp_bind, wp_op, wp_ret, wp_pure, wp_ite, wp_crash, wp_writeOnly, wp_writeSignal,
    wp_writeData, wp_handleErrors, wp_report, wp_handleHeartbeatAck, wp_handleData, act, forall_option,
    forall_monEv, forall_ackEv, forall_estEv, forall_bool, forall_unit, true_and, and_true, true_implies,
    implies_true, Bool.false_eq_true, not_false_eq_true, not_true_eq_false, false_implies, ne_eq, Decidable.not_not,
    reduceCtorEq, $xs,*])

open Lean Parser Tactic in
/-- `wp_simp` with the code of all functions; `packet` and `mode` have to be split beforehand. -/
macro "wp_code" "[" xs:simpLemma,* "]" : tactic =>
  `(tactic| wp_simp [body, openMain, monitor, monitorLoop, monitorExit, close, handleStateUpdate,
    handleStateUpdateAsClient, handleStateUpdateAsServer, notifyEstablished, initiateASPSM, initiateASPTM,
    heartbeat, beatLoop, handleSignals, sendCurrent, handleAspUp, handleAspUpAck, handleAspDown,
    handleAspDownAck, handleAspActive, handleAspActiveAck, handleAspInactive, handleAspInactiveAck,
    handleHeartbeat, handleError, handleNotify, apiCall, read, readPD, chooseStreamID, writeToStream_eq,
    writePDToStream, $xs,*])

end M3.Conn
