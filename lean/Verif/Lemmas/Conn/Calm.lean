import Verif.Lemmas.Conn.Keep
import Verif.Props.Conn.Flow
import Verif.Props.Conn.Delivery

/- Sessions without disturbances: who has the right to move the connection on, and in which state it is then. -/

set_option autoImplicit false
set_option linter.unusedSimpArgs false

namespace M3.Conn.Calm

open Spec

/-- The role of a goroutine. -/
inductive G where
  /-- a call of the user, or a heartbeat: concerns nobody -/
  | free
  | beat
  /-- a call of `Close` that has not begun -/
  | close
  /-- the session is disturbed -/
  | off
  /-- has nothing left to do -/
  | over
  /-- waits for the connection to be established; has learnt that it is -/
  | main
  | opened
  /-- will queue a payload -/
  | dat
  /-- monitor waiting for a report -/
  | wait
  /-- is to report the first state -/
  | start
  /-- handler of a message of this kind -/
  | pkt (k : Kind)
  /-- the same after it has answered -/
  | pktd (k : Kind)
  /-- the monitor, from the report of a state on -/
  | got (s : St)
  | lckd (s : St)
  | prev (s p : St)
  | upd (s p : St)
  | updd (s p : St)
  | ready
  | raw (b : Bytes)

/-- Those who can move the connection on. -/
def G.tok : G → Bool
  | .start | .pkt _ | .pktd _ | .got _ | .lckd _ | .prev .. | .upd .. | .updd .. | .ready | .raw _ => true
  | _ => false

/-- The monitor. -/
def G.mon : G → Bool
  | .wait | .got _ | .lckd _ | .prev .. | .upd .. | .updd .. | .ready | .raw _ => true
  | _ => false

/-- The state before and after a message of a session without disturbances. -/
def before : Kind → St
  | .aspUp | .aspUpAck => .down
  | .aspActive | .aspActiveAck => .inactive
  | _ => .active

def after : Kind → St
  | .aspUp | .aspUpAck => .inactive
  | _ => .active

/-- A DATA message with a payload. -/
def full (m : Msg.Data) : Bool := (m.protocolData.bind payloadOf).isSome

/-- The kind of a datagram that may occur. -/
def kindOf (b : Bytes) : Option Kind :=
  match meaning b with
  | some .data => match M3UA.parse b with
    | .ok (.data m) => if full m then some .data else none
    | _ => none
  | some .aspUp => some .aspUp
  | some .aspUpAck => some .aspUpAck
  | some .aspActive => some .aspActive
  | some .aspActiveAck => some .aspActiveAck
  | some .heartbeat => some .heartbeat
  | some .error => some .error
  | some .notify => some .notify
  | _ => none

def born : Gor → G
  | .main => .main
  | .start => .start
  | .monitor | .monitorLoop => .wait
  | .heartbeat => .beat
  | .beatLoop => .off
  | .packet b => match kindOf b with
    | some k => .pkt k
    | none => .off
  | .data m => if full m then .dat else .off
  | .api .close => .close
  | .api _ => .free

/-- Which roles a goroutine may have. -/
def Fits : Gor → G → Prop
  | _, .off => True
  | .main, s => s = .main ∨ s = .opened
  | .start, s => s = .start
  | .monitor, s | .monitorLoop, s => s.mon = true
  | .heartbeat, s | .beatLoop, s => s = .beat
  | .packet _, s => ∃ k, s = .pkt k ∨ s = .pktd k
  | .data _, s => s = .dat
  | .api .close, s => s = .close
  | .api _, s => s = .free

/-- What a client writes on entering a state, if anything. -/
def entry (E : Env) : St → Option Bytes
  | .down => match E.mode with
    | .client => some (M3UA.aspUp (Msg.AspUp.new E.cfg.aspIdentifier none)).wire
    | .server => none
  | .inactive => match E.mode with
    | .client => some (M3UA.aspActive (Msg.AspActive.new E.cfg.trafficModeType E.cfg.routingContexts none)).wire
    | .server => none
  | _ => none

/-- What the handshake messages are answered with. -/
def answer (E : Env) : Kind → Option Bytes
  | .aspUp => some (M3UA.aspUpAck (Msg.AspUpAck.new E.cfg.aspIdentifier none)).wire
  | .aspActive => some (M3UA.aspActiveAck (Msg.AspActiveAck.new E.cfg.trafficModeType E.cfg.routingContexts none)).wire
  | _ => none

def okFree : Op → Bool
  | .state | .recvData | .info | .write .. | .intn _ | .done _ => true
  | _ => false

def okBeat (E : Env) : Op → Bool
  | .waitEnter | .waitLeave => true
  | .rand | .info | .write .. | .setBeat | .ackSelect | .sleepSelect => E.hb.enabled
  | _ => false

def okDat : Op → Bool
  | .state | .sendData _ => true
  | _ => false

def okPkt (E : Env) (k : Kind) : Op → Prop
  | .ctxDone | .state | .info => True
  | .write b _ => answer E k = some b ∨ k = .heartbeat
  | .spawn g => k = .data ∧ ∃ m, g = .data m ∧ full m = true
  | .sendState s => s = after k ∧ answer E k = none
  | _ => False

def okPktd (k : Kind) : Op → Prop
  | .state => True
  | .sendState s => s = after k
  | _ => False

def okUpd (E : Env) (s p : St) : Op → Prop
  | .info => True
  | .broadcast => p = .active
  | .write b _ => entry E s = some b
  | .sendEst => s = .active ∧ p ≠ .active
  | .unlock => entry E s = none ∧ (s = .active → p = .active)
  | _ => False

def ok (E : Env) (s : G) (o : Op) : Prop :=
  match s with
  | .off => True
  | .over => False
  | .close => o = .lock
  | .free => okFree o = true
  | .beat => okBeat E o = true
  | .main => o = .estSelect
  | .opened => o = .opened .conn
  | .dat => okDat o = true
  | .wait => o = .monSelect ∨ o = .spawn .heartbeat
  | .start => o = .sendState .down
  | .pkt k => okPkt E k o
  | .pktd k => okPktd k o
  | .got _ => o = .lock
  | .lckd _ => o = .getSt
  | .prev s _ => o = .putSt s
  | .upd s p => okUpd E s p o
  | .updd _ _ => o = .unlock
  | .ready => o = .read 1500
  | .raw b => o = .spawn (.packet b)

namespace G

/-- The transitions. -/
def done : G → G
  | .off => .off
  | _ => .over

def seen (r : St) : G → G
  | .pkt k => if r = before k then .pkt k else .off
  | .pktd k => if r = before k then .pktd k else .off
  | .dat => if r = .active then .dat else .off
  | s => s

def wrote : G → Bool → G
  | .free, _ => .free
  | .pkt k, true => .pktd k
  | .upd s p, true => .updd s p
  | s, true => s
  | _, false => .off

def est : G → EstEv → G
  | .main, .ok => .opened
  | _, _ => .off

def heard : G → MonEv → G
  | .wait, .state .down => .got .down
  | .wait, .state .inactive => .got .inactive
  | .wait, .state .active => .got .active
  | _, _ => .off

def lock : G → G
  | .got s => .lckd s
  | _ => .off

def getSt (p : St) : G → G
  | .lckd s => .prev s p
  | s => s

def putSt : G → G
  | .prev s p => .upd s p
  | s => s

def sendEst : G → G
  | .upd s _ => .upd s s
  | s => s

def unlock : G → G
  | .upd _ _ | .updd _ _ => .ready
  | s => s

def read : G → Option Bytes → G
  | .ready, some b => .raw b
  | _, _ => .off

def passed : G → G
  | .raw _ => .wait
  | s => s

end G

def next (s : G) : (o : Op) → Resp o → G
  | .ctxDone, r => if r = true then .off else s
  | .state, r => s.seen r
  | .write .., r => s.wrote r.isSome
  | .rand, r => if r.isSome then s else .off
  | .ackSelect, r => if r = .timer then .off else s
  | .sendData _, _ => s.done
  | .sendState _, _ => s.done
  | .opened _, _ => s.done
  | .estSelect, r => s.est r
  | .monSelect, r => s.heard r
  | .lock, _ => s.lock
  | .getSt, p => s.getSt p
  | .putSt _, _ => s.putSt
  | .sendEst, _ => s.sendEst
  | .unlock, _ => s.unlock
  | .read _, r => s.read r
  | .spawn _, _ => s.passed
  | _, _ => s

def may : (o : Op) → Resp o → Prop
  | .info, i => i = ⟨3, 0⟩
  | _, _ => True

def fin : G → Prop
  | .off | .over | .free | .beat => True
  | _ => False

def D (E : Env) : Disc G where
  start g s := s = born g ∨ s = .off ∨ (g = .beatLoop ∧ s = .beat ∧ E.hb.enabled = true)
  born := born
  ok g s o := Fits g s ∧ ok E s o
  may _ _ o r := may o r
  next _ := next
  fin := fin

section
variable {E : Env}

theorem D_ok {g s o} : (D E).ok g s o = (Fits g s ∧ ok E s o) := rfl
theorem D_may {g s o r} : (D E).may g s o r = may o r := rfl
theorem D_next {g s o r} : (D E).next g s o r = next s o r := rfl
theorem D_post_none {s} : (D E).post s none ↔ fin s := Iff.rfl
theorem D_post_some {s g} : (D E).post s (some g) ↔ (s = born g ∨ s = .off ∨ (g = .beatLoop ∧ s = .beat ∧ E.hb.enabled = true)) := Iff.rfl

theorem next_off (o : Op) (r : Resp o) : next .off o r = .off := by
  cases o <;> simp only [next] <;> first | rfl | (split <;> rfl) | skip
  case write => cases r <;> rfl

theorem D_post_off {r} : (D E).post .off r ↔ True := by
  cases r <;> simp [D_post_none, D_post_some, fin]

/-- Whatever the code, a disturbed goroutine may do it. -/
theorem wp_off {g : Gor} (p : Prog (Option Gor)) : WP (D E) g (D E).post .off p := by
  induction p with
  | ret r => cases r <;> simp [wp_ret, D_post_none, D_post_some, fin]
  | op o k ih =>
    refine wp_op.mpr ⟨⟨by cases g <;> trivial, trivial⟩, fun r _ => ?_⟩
    rw [D_next, next_off]
    exact ih r

theorem wp_off' {g : Gor} {α : Type} {Q : G → α → Prop} {p : Prog α} (h : ∀ a, Q .off a) : WP (D E) g Q .off p := by
  induction p with
  | ret r => exact h r
  | op o k ih =>
    refine wp_op.mpr ⟨⟨by cases g <;> trivial, trivial⟩, fun r _ => ?_⟩
    rw [D_next, next_off]
    exact ih r

end

theorem kindOf_ok {b : Bytes} {m : M3UA} (hp : M3UA.parse b = .ok m) (hv : m.version = 1) : kindOf b =
    match m with
    | .data m => if full m then some .data else none
    | .aspUp _ => some .aspUp
    | .aspUpAck _ => some .aspUpAck
    | .aspActive _ => some .aspActive
    | .aspActiveAck _ => some .aspActiveAck
    | .heartbeat _ => some .heartbeat
    | .error _ => some .error
    | .notify _ => some .notify
    | _ => none := by
  have he := Flow.meaning_ok hp hv
  unfold kindOf
  rw [he]
  cases m <;> simp [M3UA.kind, hp]

open Lean Parser Tactic in
macro "calm_code" "[" xs:simpLemma,* "]" : tactic =>
  `(tactic| wp_code [↓wp_off', D_post_off, forall_st, D_ok, D_may, D_next, ok, okFree, okBeat, okDat, okPkt, okPktd, okUpd, entry, answer, next, G.seen, G.done, G.wrote, G.est, G.heard, G.lock, G.getSt, G.putSt, G.sendEst, G.unlock, G.read, G.passed, if_true, if_false, may, Option.isSome, D_post_none, D_post_some, born, fin, Fits, $xs,*])

set_option maxHeartbeats 1000000 in
theorem good_monitorLoop (E : Env) : WP (D E) .monitorLoop (D E).post .wait (body E .monitorLoop) := by
  obtain ⟨mode, cfg, hb, ms⟩ := E
  cases mode <;> calm_code [] <;> simp [G.mon]

set_option maxHeartbeats 2000000 in
theorem good_packet (E : Env) (raw : Bytes) : WP (D E) (.packet raw) (D E).post (born (.packet raw)) (body E (.packet raw)) := by
  rw [body, packet_eq]
  cases hp : M3UA.parse raw with
  | ok m =>
    by_cases hv : m.version = 1
    · have he := kindOf_ok hp hv
      cases m <;> simp only at he
      case data m =>
        by_cases hf : full m = true
        · simp only [hf, if_true] at he
          calm_code [before, after, he, hv]
          simp [hf]
        · simp only [hf] at he
          rw [born, he]; exact wp_off _
      all_goals first
        | (rw [born, he]; exact wp_off _; done)
        | (calm_code [before, after, he, hv]
           simp)
    · have he : kindOf raw = none := by
        have := (M3UA.parse_octets hp).1
        simp only [kindOf, meaning, hp, this, hv, if_false]
      rw [born, he]; exact wp_off _
  | _ =>
    have he : kindOf raw = none := by simp [kindOf, meaning, hp]
    rw [born, he]; exact wp_off _

theorem good_data (E : Env) (m : Msg.Data) : WP (D E) (.data m) (D E).post (born (.data m)) (body E (.data m)) := by
  by_cases hf : full m = true
  · simp only [born, hf, if_true]
    unfold full at hf
    cases hm : m.protocolData with
    | none => rw [hm] at hf; cases hf
    | some p =>
      cases hq : payloadOf p with
      | none => simp [hm, hq] at hf
      | some pd =>
        calm_code [hm]
        simp [hq]
  · simp only [born, hf]; exact wp_off _

theorem good_api {E : Env} (hE : E.maxStream ≠ 0) (c : Api) : WP (D E) (.api c) (D E).post (born (.api c)) (body E (.api c)) := by
  cases c <;> calm_code [] <;> simp [hE]

theorem good {E : Env} (hE : E.maxStream ≠ 0) : (D E).Good E where
  main := .inl rfl
  init := .inl rfl
  monitor := .inl rfl
  api _ := .inl rfl
  spawn g s g' h := .inl rfl
  body g s hs := by
    rcases hs with rfl | rfl | ⟨rfl, rfl, he⟩
    · cases g with
      | monitorLoop => exact good_monitorLoop E
      | packet raw => exact good_packet E raw
      | api c => exact good_api hE c
      | data m => exact good_data E m
      | beatLoop => exact wp_off _
      | _ => calm_code [] <;> simp [G.mon]
    · exact wp_off _
    · calm_code [he] <;> simp [G.mon]

end M3.Conn.Calm
