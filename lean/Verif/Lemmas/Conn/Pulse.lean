import Verif.Lemmas.Conn.CalmInv
import Verif.Props.Conn.Beat
import Verif.Props.Conn.Heartbeats
import Verif.Spec.Pulse

/- Sessions with answered heartbeats: who has the right to move the connection on. This extends `Calm` by the roles of the goroutine that
sends heartbeats and of the handlers of Heartbeat Ack. -/

set_option autoImplicit false
set_option linter.unusedSimpArgs false

namespace M3.Conn.Pulse

open Spec
open Calm (before after full kindOf kindOf_ok entry answer okFree okDat okPkt okPktd okUpd)

/-- The role of a goroutine. -/
inductive G where
  /-- a call of the user: concerns nobody -/
  | free
  /-- is to send heartbeats and waits to be woken -/
  | nap
  /-- sends heartbeats -/
  | beat
  /-- the same, has drawn these data for the next one -/
  | drew (d : Bytes)
  /-- the same, has sent it -/
  | posted (d : Bytes)
  /-- the same, waiting for the answer -/
  | pulse
  /-- monitor before it starts the goroutine that sends heartbeats -/
  | boot
  /-- handler of a Heartbeat Ack with these data, before it has compared them -/
  | ack (d : Bytes)
  /-- the same after a comparison with success -/
  | ackc
  /-- a call of `Close` that has not begun -/
  | close
  /-- the session is disturbed -/
  | off
  /-- has nothing left to do -/
  | over
  /-- waits for the connection to be established; has learnt that it is -/
  | main
  | opened
  /-- will queue a payload -/
  | dat
  /-- monitor waiting for a report -/
  | wait
  /-- is to report the first state -/
  | start
  /-- handler of a message of this kind -/
  | pkt (k : Kind)
  /-- the same after it has answered -/
  | pktd (k : Kind)
  /-- the monitor, from the report of a state on -/
  | got (s : St)
  | lckd (s : St)
  | prev (s p : St)
  | upd (s p : St)
  | updd (s p : St)
  | ready
  | raw (b : Bytes)

/-- Those who can move the connection on. -/
def G.tok : G → Bool
  | .start | .ack _ | .ackc | .pkt _ | .pktd _ | .got _ | .lckd _ | .prev .. | .upd .. | .updd .. | .ready | .raw _ => true
  | _ => false

/-- The monitor. -/
def G.mon : G → Bool
  | .boot | .wait | .got _ | .lckd _ | .prev .. | .upd .. | .updd .. | .ready | .raw _ => true
  | _ => false

def born : Gor → G
  | .main => .main
  | .start => .start
  | .monitor => .boot
  | .monitorLoop => .wait
  | .heartbeat => .nap
  | .beatLoop => .off
  | .packet b => match kindOf b with
    | some k => .pkt k
    | none => match ackData b with
      | some d => .ack d
      | none => .off
  | .data m => if full m then .dat else .off
  | .api .close => .close
  | .api _ => .free

/-- Which roles a goroutine may have. -/
def Fits : Gor → G → Prop
  | _, .off => True
  | .main, s => s = .main ∨ s = .opened
  | .start, s => s = .start
  | .monitor, s | .monitorLoop, s => s.mon = true
  | .heartbeat, s => s = .nap ∨ s = .beat
  | .beatLoop, s => s = .beat ∨ (∃ d, s = .drew d) ∨ (∃ d, s = .posted d) ∨ s = .pulse
  | .packet b, s => (∃ k, s = .pkt k ∧ kindOf b = some k) ∨ (∃ k, s = .pktd k) ∨ (∃ d, s = .ack d) ∨ s = .ackc
  | .data _, s => s = .dat
  | .api .close, s => s = .close
  | .api _, s => s = .free

def okNap : Op → Bool
  | .waitEnter | .waitLeave => true
  | _ => false

def okBeat (E : Env) : Op → Bool
  | .rand | .sleepSelect => E.hb.enabled
  | _ => false

def okDrew (d : Bytes) : Op → Prop
  | .info => True
  | .write b _ => d.length = 128 ∧ b = message 1 3 3 [tlv 9 d]
  | _ => False

def okAck (o : Op) : Bool :=
  match o with
  | .ctxDone | .state | .getBeat => true
  | _ => false

def ok (E : Env) (s : G) (o : Op) : Prop :=
  match s with
  | .off => True
  | .over => False
  | .close => o = .lock
  | .free => okFree o = true
  | .nap => okNap o = true
  | .beat => okBeat E o = true
  | .drew d => okDrew d o
  | .posted _ => o = .setBeat
  | .main => o = .estSelect
  | .opened => o = .opened .conn
  | .dat => okDat o = true
  | .pulse => o = .ackSelect
  | .boot => o = .spawn .heartbeat
  | .ack _ => okAck o = true
  | .ackc => o = .sendAck
  | .wait => o = .monSelect
  | .start => o = .sendState .down
  | .pkt k => okPkt E k o
  | .pktd k => okPktd k o
  | .got _ => o = .lock
  | .lckd _ => o = .getSt
  | .prev s _ => o = .putSt s
  | .upd s p => okUpd E s p o
  | .updd _ _ => o = .unlock
  | .ready => o = .read 1500
  | .raw b => o = .spawn (.packet b)

namespace G

/-- The transitions. -/
def done : G → G
  | .off => .off
  | _ => .over

def seen (r : St) : G → G
  | .pkt k => if r = before k then .pkt k else .off
  | .pktd k => if r = before k then .pktd k else .off
  | .dat => if r = .active then .dat else .off
  | .ack d => if r = .active then .ack d else .off
  | s => s

def wrote : G → Bool → G
  | .free, _ => .free
  | .pkt k, true => .pktd k
  | .drew d, true => .posted d
  | .upd s p, true => .updd s p
  | s, true => s
  | _, false => .off

def est : G → EstEv → G
  | .main, .ok => .opened
  | _, _ => .off

def heard : G → MonEv → G
  | .wait, .state .down => .got .down
  | .wait, .state .inactive => .got .inactive
  | .wait, .state .active => .got .active
  | _, _ => .off

def lock : G → G
  | .got s => .lckd s
  | _ => .off

def getSt (p : St) : G → G
  | .lckd s => .prev s p
  | s => s

def putSt : G → G
  | .prev s p => .upd s p
  | s => s

def sendEst : G → G
  | .upd s _ => .upd s s
  | s => s

def unlock : G → G
  | .upd _ _ | .updd _ _ => .ready
  | s => s

def read : G → Option Bytes → G
  | .ready, some b => .raw b
  | _, _ => .off

def passed : G → G
  | .raw _ | .boot => .wait
  | s => s

def woken : G → G
  | .nap => .beat
  | s => s

def compared (b : Bytes) : G → G
  | .ack d => if d = b then .ackc else .off
  | s => s

def drawn : G → Option Bytes → G
  | .beat, some d => .drew d
  | _, none => .off
  | s, _ => s

def stored : G → G
  | .posted _ => .pulse
  | s => s

def heardAck : G → AckEv → G
  | .pulse, .ack => .beat
  | _, _ => .off

def told : G → G
  | .ackc => .pktd .heartbeatAck
  | s => s

end G

def next (s : G) : (o : Op) → Resp o → G
  | .ctxDone, r => if r = true then .off else s
  | .state, r => s.seen r
  | .write .., r => s.wrote r.isSome
  | .waitLeave, _ => s.woken
  | .sleepSelect, r => if r = true then .off else s
  | .rand, r => s.drawn r
  | .ackSelect, r => s.heardAck r
  | .getBeat, b => s.compared b
  | .setBeat, _ => s.stored
  | .sendAck, _ => s.told
  | .sendData _, _ => s.done
  | .sendState _, _ => s.done
  | .opened _, _ => s.done
  | .estSelect, r => s.est r
  | .monSelect, r => s.heard r
  | .lock, _ => s.lock
  | .getSt, p => s.getSt p
  | .putSt _, _ => s.putSt
  | .sendEst, _ => s.sendEst
  | .unlock, _ => s.unlock
  | .read _, r => s.read r
  | .spawn _, _ => s.passed
  | _, _ => s

def may : (o : Op) → Resp o → Prop
  | .info, i => i = ⟨3, 0⟩
  | .rand, r => ∀ d, r = some d → d.length = 128
  | _, _ => True

def fin (E : Env) : G → Prop
  | .off | .over | .free => True
  | .beat => E.hb.enabled = false
  | _ => False

def D (E : Env) : Disc G where
  start g s := s = born g ∨ s = .off ∨ (g = .beatLoop ∧ s = .beat ∧ E.hb.enabled = true)
  born := born
  ok g s o := Fits g s ∧ ok E s o
  may _ _ o r := may o r
  next _ := next
  fin := fin E

section
variable {E : Env}

theorem D_ok {g s o} : (D E).ok g s o = (Fits g s ∧ ok E s o) := rfl
theorem D_may {g s o r} : (D E).may g s o r = may o r := rfl
theorem D_next {g s o r} : (D E).next g s o r = next s o r := rfl
theorem D_post_none {s} : (D E).post s none ↔ fin E s := Iff.rfl
theorem D_post_some {s g} : (D E).post s (some g) ↔ (s = born g ∨ s = .off ∨ (g = .beatLoop ∧ s = .beat ∧ E.hb.enabled = true)) := Iff.rfl

theorem next_off (o : Op) (r : Resp o) : next .off o r = .off := by
  cases o <;> simp only [next] <;> first | rfl | (split <;> rfl) | skip
  case write => cases r <;> rfl
  case rand => cases r <;> rfl

theorem D_post_off {r} : (D E).post .off r ↔ True := by
  cases r <;> simp [D_post_none, D_post_some, fin]

/-- Whatever the code, a disturbed goroutine may do it. -/
theorem wp_off {g : Gor} (p : Prog (Option Gor)) : WP (D E) g (D E).post .off p := by
  induction p with
  | ret r => cases r <;> simp [wp_ret, D_post_none, D_post_some, fin]
  | op o k ih =>
    refine wp_op.mpr ⟨⟨by cases g <;> trivial, trivial⟩, fun r _ => ?_⟩
    rw [D_next, next_off]
    exact ih r

theorem wp_off' {g : Gor} {α : Type} {Q : G → α → Prop} {p : Prog α} (h : ∀ a, Q .off a) : WP (D E) g Q .off p := by
  induction p with
  | ret r => exact h r
  | op o k ih =>
    refine wp_op.mpr ⟨⟨by cases g <;> trivial, trivial⟩, fun r _ => ?_⟩
    rw [D_next, next_off]
    exact ih r

end

theorem kindOf_ok {b : Bytes} {m : M3UA} (hp : M3UA.parse b = .ok m) (hv : m.version = 1) : kindOf b =
    match m with
    | .data m => if full m then some .data else none
    | .aspUp _ => some .aspUp
    | .aspUpAck _ => some .aspUpAck
    | .aspActive _ => some .aspActive
    | .aspActiveAck _ => some .aspActiveAck
    | .heartbeat _ => some .heartbeat
    | .error _ => some .error
    | .notify _ => some .notify
    | _ => none := by
  have he := Flow.meaning_ok hp hv
  unfold kindOf
  rw [he]
  cases m <;> simp [M3UA.kind, hp]

open Lean Parser Tactic in
macro "calm_code" "[" xs:simpLemma,* "]" : tactic =>
  `(tactic| wp_code [↓wp_off', D_post_off, forall_st, D_ok, D_may, D_next, ok, okFree, okNap, G.woken, okBeat, okDrew, G.drawn, okDat, okPkt, okPktd, okUpd, entry, answer, next, G.seen, G.done, G.wrote, G.est, G.heard, G.lock, G.getSt, G.putSt, G.sendEst, G.unlock, G.read, G.passed, G.compared, G.stored, G.heardAck, G.told, okAck, if_true, if_false, may, Option.isSome, D_post_none, D_post_some, born, fin, Fits, $xs,*])

set_option maxHeartbeats 1000000 in
theorem good_monitorLoop (E : Env) : WP (D E) .monitorLoop (D E).post .wait (body E .monitorLoop) := by
  obtain ⟨mode, cfg, hb, ms⟩ := E
  cases mode <;> calm_code [] <;> simp [G.mon]

theorem ackData_none {raw : Bytes} (h : ∀ m, M3UA.parse raw ≠ .ok (.heartbeatAck m)) : ackData raw = none := by
  unfold ackData
  split
  · rename_i m _ hp; exact absurd hp (h m)
  · rfl

theorem born_off {raw : Bytes} (he : kindOf raw = none) (h : ackData raw = none) : born (.packet raw) = .off := by
  simp only [born, he, h]

set_option maxHeartbeats 1000000 in
theorem good_ack (E : Env) (raw : Bytes) {m : Msg.HeartbeatAck} (hp : M3UA.parse raw = .ok (.heartbeatAck m))
    (hv : (M3UA.heartbeatAck m).version = 1) : WP (D E) (.packet raw) (D E).post (born (.packet raw)) (body E (.packet raw)) := by
  have he := kindOf_ok hp hv
  have hk : meaning raw = some .heartbeatAck := Flow.meaning_ok hp hv
  have ha : ackData raw = m.heartbeatData.map Param.data := by simp only [ackData, hk, hp]
  rw [body, packet_eq]
  cases hd : m.heartbeatData with
  | none => rw [born_off he (by rw [ha, hd]; rfl)]; exact wp_off _
  | some p =>
    have htag : p.tag = 9 :=
      (M3UA.parse_field hp rfl (n := .heartbeatData) (by decide) (p := p) (by rw [M3UA.field]; exact hd)).2
    have hb : born (.packet raw) = .ack p.data := by simp only [born, he, ha, hd, Option.map_some]
    rw [hb]
    simp only [hp]
    have key : ∀ b, (ackMatches p b = true ↔ p.data = b) := fun b => by simp [ackMatches_iff htag]
    calm_code [before, after, hv, hd, Option.some.injEq, forall_eq', key, Bool.eq_false_iff]
    refine ⟨by simp, by simp, by simp, fun b => ?_⟩
    by_cases hb' : p.data = b
    · subst hb'
      simp
    · simp [hb', fin]

set_option maxHeartbeats 2000000 in
theorem good_packet (E : Env) (raw : Bytes) : WP (D E) (.packet raw) (D E).post (born (.packet raw)) (body E (.packet raw)) := by
  cases hp : M3UA.parse raw with
  | ok m =>
    by_cases hv : m.version = 1
    · have he := kindOf_ok hp hv
      have ha : (∀ a, m ≠ .heartbeatAck a) → ackData raw = none := fun h => ackData_none fun a h' => h a (by rw [hp] at h'; cases h'; rfl)
      cases m <;> simp only at he
      case data m =>
        rw [body, packet_eq, hp]
        by_cases hf : full m = true
        · simp only [hf, if_true] at he
          calm_code [before, after, he, hv]
          simp [hf]
        · simp only [hf] at he
          rw [born_off he (ha (by intro a h; cases h))]; exact wp_off _
      case heartbeatAck m => exact good_ack E raw hp hv
      all_goals first
        | (rw [born_off he (ha (by intro a h; cases h))]; exact wp_off _; done)
        | (rw [body, packet_eq, hp]
           calm_code [before, after, he, hv]
           simp)
    · have hm : meaning raw = none := by
        have := (M3UA.parse_octets hp).1
        simp only [meaning, hp, this, hv, if_false]
      rw [born_off (by simp only [kindOf, hm]) (by simp only [ackData, hm])]; exact wp_off _
  | _ =>
    have hm : meaning raw = none := by simp [meaning, hp]
    rw [born_off (by simp only [kindOf, hm]) (by simp only [ackData, hm])]; exact wp_off _

theorem good_data (E : Env) (m : Msg.Data) : WP (D E) (.data m) (D E).post (born (.data m)) (body E (.data m)) := by
  by_cases hf : full m = true
  · simp only [born, hf, if_true]
    unfold full at hf
    cases hm : m.protocolData with
    | none => rw [hm] at hf; cases hf
    | some p =>
      cases hq : payloadOf p with
      | none => simp [hm, hq] at hf
      | some pd =>
        calm_code [hm]
        simp [hq]
  · simp only [born, hf]; exact wp_off _

theorem good_api {E : Env} (hE : E.maxStream ≠ 0) (c : Api) : WP (D E) (.api c) (D E).post (born (.api c)) (body E (.api c)) := by
  cases c <;> calm_code [] <;> simp [hE]

theorem good_beatLoop {E : Env} (he : E.hb.enabled = true) : WP (D E) .beatLoop (D E).post .beat (body E .beatLoop) := by
  rw [body, beatLoop_eq, wp_op]
  refine ⟨⟨.inl rfl, he⟩, fun r hr => ?_⟩
  cases r with
  | none => exact wp_off _
  | some d =>
    have hd : d.length = 128 := hr d rfl
    simp only [wp_op]
    refine ⟨⟨.inr (.inl ⟨d, rfl⟩), trivial⟩, fun i hi => ?_⟩
    refine ⟨⟨.inr (.inl ⟨d, rfl⟩), hd, beat_wire hd⟩, fun r _ => ?_⟩
    cases r with
    | none => exact wp_off _
    | some n =>
      simp only [wp_op]
      refine ⟨⟨.inr (.inr (.inl ⟨d, rfl⟩)), rfl⟩, fun _ _ => ⟨⟨.inr (.inr (.inr rfl)), rfl⟩, fun r _ => ?_⟩⟩
      cases r with
      | ack =>
        refine wp_op.mpr ⟨⟨.inl rfl, he⟩, fun r _ => ?_⟩
        cases r with
        | true => exact wp_off _
        | false => exact wp_ret.mpr (.inr (.inr ⟨rfl, rfl, he⟩))
      | _ => exact wp_off _

theorem good {E : Env} (hE : E.maxStream ≠ 0) : (D E).Good E where
  main := .inl rfl
  init := .inl rfl
  monitor := .inl rfl
  api _ := .inl rfl
  spawn g s g' h := .inl rfl
  body g s hs := by
    rcases hs with rfl | rfl | ⟨rfl, rfl, he⟩
    · cases g with
      | monitorLoop => exact good_monitorLoop E
      | packet raw => exact good_packet E raw
      | api c => exact good_api hE c
      | data m => exact good_data E m
      | beatLoop => exact wp_off _
      | _ => calm_code [] <;> simp [G.mon]
    · exact wp_off _
    · exact good_beatLoop he

end M3.Conn.Pulse
