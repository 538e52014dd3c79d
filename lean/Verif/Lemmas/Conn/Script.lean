import Verif.Lemmas.Conn.Facts
import Verif.Lemmas.Conn.Fold
import Verif.Lemmas.Conn.MonRound
import Verif.Props.Conn.Errors
import Verif.Props.Conn.Handling
import Verif.Spec.Script

/- Everything that a connection sends by itself is determined by the datagrams read, heartbeats aside. -/

set_option autoImplicit false
set_option linter.unusedSimpArgs false

namespace M3.Spec

variable {α : Type}

theorem Interleaved.snoc_left {a b l : List α} (h : Interleaved a b l) (x : α) : Interleaved (a ++ [x]) b (l ++ [x]) := by
  induction h with
  | nil => exact .left x .nil
  | left y _ ih => exact .left y ih
  | right y _ ih => exact .right y ih

theorem Interleaved.snoc_right {a b l : List α} (h : Interleaved a b l) (x : α) : Interleaved a (b ++ [x]) (l ++ [x]) := by
  induction h with
  | nil => exact .right x .nil
  | left y _ ih => exact .left y ih
  | right y _ ih => exact .right y ih

theorem Interleaved.eq_left {a l : List α} (h : Interleaved a [] l) : l = a := by
  generalize hb : ([] : List α) = b at h
  induction h with
  | nil => rfl
  | left y _ ih => rw [ih hb]
  | right y _ _ => cases hb

theorem Interleaved.sublist {a b l : List α} (h : Interleaved a b l) : a.Sublist l ∧ b.Sublist l := by
  induction h with
  | nil => exact ⟨.slnil, .slnil⟩
  | left y _ ih => exact ⟨ih.1.cons_cons y, ih.2.cons y⟩
  | right y _ ih => exact ⟨ih.1.cons y, ih.2.cons_cons y⟩

theorem Interleaved.length {a b l : List α} (h : Interleaved a b l) : l.length = a.length + b.length := by
  induction h with
  | nil => rfl
  | left y _ ih => simp only [List.length_cons]; omega
  | right y _ ih => simp only [List.length_cons]; omega

end M3.Spec

namespace M3.Conn.Script

open Spec

/-- Where a goroutine is. -/
inductive S where
  | idle
  /-- about to report the initial state -/
  | start
  /-- handling `raw`; the state was seen to be `first` at first and `last` the last time; `outs` was sent or will be sent by the monitor -/
  | pend (raw : Bytes) (first last : Option St) (outs : List Bytes)
  /-- the monitor waits for something to do -/
  | sel
  /-- it has to send `d` -/
  | reply (d : List Bytes)
  /-- a state was reported and is not stored yet -/
  | upd (x : St)
  /-- it is stored, and `r` remains to be sent -/
  | put (x : St) (r : Option Bytes)
  /-- a datagram was read -/
  | got (raw : Bytes)
  /-- inside `Close`, after the first channel was closed -/
  | closing
  deriving DecidableEq

variable (E : Env)

/-- The Error message for `e`. -/
def errs (e : CErr) : List Bytes := ((Conn.reply E e).map M3UA.wire).toList

def ans (s : St) (raw : Bytes) : List Bytes := answers E.cfg M3UA.wire s raw

/-- `outs` is a beginning of the answer to `raw` in the state that was seen at first. -/
def within (raw : Bytes) (first : Option St) (outs : List Bytes) : Prop := ∀ st, (∀ y, first = some y → y = st) → outs <+: ans E st raw

def ok (g : Gor) (s : S) : Op → Prop
  | .sendState x => x.asp = true ∧ match s with
    | .start => x = .down
    | .pend raw first last outs => ∃ st st', first = some st ∧ last = some st' ∧ x = (effect raw).getD st' ∧ outs = ans E st raw
    | _ => False
  | .sendErr e => match g with
    | .packet raw => match s with
      | .pend raw' a _ outs => raw' = raw ∧ (meaning raw ≠ some .heartbeatAck → within E raw a (outs ++ errs E e))
      | _ => False
    | .data _ => s = .idle
    | _ => errs E e = []
  | .write b _ => match g with
    | .monitorLoop => s = .reply [b] ∨ ∃ x, s = .put x (some b)
    | .packet raw => match s with
      | .pend raw' a _ outs => raw' = raw ∧ outs = [] ∧ within E raw a [b]
      | _ => False
    | _ => True
  | .putSt x => x.asp = true ∧ (s = .upd x ∨ (s = .closing ∧ x = .down))
  | .read _ => ∃ x, s = .put x none
  | .spawn (.packet raw) => s = .got raw
  | .spawn .start => False
  | .spawn .monitor => False
  | .spawn .monitorLoop => False
  | .monSelect => s = .sel
  | _ => True

def next (g : Gor) (s : S) : (o : Op) → Resp o → S
  | .sendState _, _ => .idle
  | .monSelect, .state x => .upd x
  | .monSelect, .err e => .reply (errs E e)
  | .putSt x, _ => if s = .closing then .closing else .put x (request E.cfg E.mode x)
  | .read _, some raw => .got raw
  | .read _, none => .idle
  | .spawn (.packet _), _ => .sel
  | .closeEst, _ => .closing
  | .state, r => match s with
    | .pend raw a _ outs => .pend raw (a.or (some r)) (some r) outs
    | s => s
  | .sendErr e, _ => match s with
    | .pend raw a b outs => .pend raw a b (if meaning raw = some .heartbeatAck then outs else outs ++ errs E e)
    | s => s
  | .write b _, _ => match g with
    | .monitorLoop => match s with
      | .reply _ => .sel
      | .put x _ => .put x none
      | s => s
    | .packet _ => match s with
      | .pend raw p q outs => .pend raw p q (outs ++ [b])
      | s => s
    | _ => s
  | _, _ => s

def born : Gor → S
  | .start => .start
  | .packet raw => .pend raw none none []
  | .monitor => .sel
  | .monitorLoop => .sel
  | _ => .idle

def D : Disc S where
  start g s := s = born g
  born := born
  ok := ok E
  may _ _ o r := Facts.may o r
  next := next E

theorem D_ok {E : Env} {g s o} : (D E).ok g s o = ok E g s o := rfl
theorem D_may {E : Env} {g s o r} : (D E).may g s o r = Facts.may o r := rfl
theorem D_next {E : Env} {g s o r} : (D E).next g s o r = next E g s o r := rfl
theorem D_post {E : Env} {s r} : (D E).post s r ↔ ∀ g, r = some g → s = born g := by
  cases r <;> simp [Disc.post, D]

theorem errs_none {E : Env} {e : CErr} (h : Conn.reply E e = none) : errs E e = [] := by simp [errs, h]
theorem errs_some {E : Env} {e : CErr} {m : M3UA} (h : Conn.reply E e = some m) : errs E e = [m.wire] := by simp [errs, h]

theorem errs_sctp : errs E .sctp = [] := rfl

theorem errorMessage_errs (e : CErr) : (errorMessage E.cfg M3UA.wire e).toList = errs E e := by
  rw [reply_wire E M3UA.wire M3UA.encodes_wire]; rfl

theorem good_monitorLoop : WP (D E) .monitorLoop (D E).post .sel (body E .monitorLoop) := by
  obtain ⟨mode, cfg, hb, ms⟩ := E
  cases mode <;> wp_code [D_ok, D_may, D_next, ok, Facts.may, next, D_post, born] <;>
    simp +contextual [request, aspUp_wire, aspActive_wire, St.asp, errs_some]

theorem good_packet (raw : Bytes) : WP (D E) (.packet raw) (D E).post (.pend raw none none []) (body E (.packet raw)) := by
  rw [body, packet_eq]
  cases hp : M3UA.parse raw with
  | ok m =>
    have hv := (M3UA.parse_octets hp).1
    by_cases hv' : m.version = 1
    · have he := Fold.effect_ok hp hv'
      have hm : meaning raw = m.kind := by simp only [meaning, hp, hv, hv', if_true]
      have ha : ∀ s, ans E s raw = match m.kind with
          | none => errs E (.unsupportedMessage m)
          | some k =>
            if handled k = false then errs E (.unsupportedMessage m) else
            match k with
            | .data | .heartbeatAck => []
            | .heartbeat => if s = .active then [echo raw m] else errs E (.unexpectedMessage m)
            | k => if expected k s then (ack E.cfg k).toList else errs E (.unexpectedMessage m) := by
        intro s
        simp only [ans, answers, hp, hv, hv', errorMessage_errs, ne_eq, not_true_eq_false, if_false]
        cases m.kind with
        | none => rfl
        | some k => cases k <;> rfl
      cases m <;> simp only [M3UA.kind, Option.bind_some, commands] at he hm ha <;>
        wp_code [D_ok, D_may, D_next, ok, Facts.may, next, D_post, born] <;>
        simp +contextual [he, hv', hm, ha, within, handled, expected, ack, aspUpAck_wire, aspDownAck_wire, aspActiveAck_wire,
          aspInactiveAck_wire, St.asp, forall_st, errs_sctp]
      exact heartbeat_wire hp
    · have ha : ∀ s, ans E s raw = errs E (.invalidVersion m.version) := by
        intro s
        simp only [ans, answers, hp, hv, hv', errorMessage_errs, ne_eq, not_false_eq_true, if_true]
      cases m <;> wp_code [D_ok, D_may, D_next, ok, Facts.may, next, D_post, born] <;> simp [hv', within, ha]
  | _ => wp_code [D_post] <;> simp

theorem good : (D E).Good E where
  main := rfl
  init := rfl
  monitor := rfl
  api _ := rfl
  spawn g s g' h := rfl
  body g s hs := by
    obtain rfl := hs
    cases g with
    | monitorLoop => exact good_monitorLoop E
    | packet raw => exact good_packet E raw
    | api c =>
      cases c <;> wp_code [D_ok, D_may, D_next, ok, Facts.may, next, D_post, born] <;> simp [St.asp]
    | _ => wp_code [D_ok, D_may, D_next, ok, Facts.may, next, D_post, born] <;> simp [St.asp, errs, Conn.reply]

def one : S → Nat
  | .start | .pend .. | .upd _ | .put .. | .got _ => 1
  | _ => 0

def mon : S → Nat
  | .sel | .reply _ | .upd _ | .put .. | .got _ => 1
  | _ => 0

def owed : S → List Bytes
  | .reply d => d
  | _ => []

/-- Bytes sent by the monitor or by the handler of a datagram. -/
def mine? (x : Rec) : Option Bytes :=
  match x.gor with
  | .monitorLoop | .packet _ => (sent? x.ev).map Sent.bytes
  | _ => none

def O (tr : List Rec) : List Bytes := tr.filterMap mine?

/-- Errors that the order of the datagrams does not determine. -/
def bad (x : Rec) : Bool :=
  match x.gor, x.ev.op with
  | .packet raw, .sendErr _ => meaning raw = some .heartbeatAck
  | .data _, .sendErr _ => true
  | _, _ => false

def T (rs : List Bytes) : List Bytes := transcript E.cfg M3UA.wire E.mode rs

theorem dialogue_append (s : St) (rs : List Bytes) (raw : Bytes) :
    dialogue E.cfg M3UA.wire E.mode s (rs ++ [raw]) = dialogue E.cfg M3UA.wire E.mode s rs ++
      (ans E (rs.foldl (fun s raw => (effect raw).getD s) s) raw ++
        (request E.cfg E.mode ((effect raw).getD (rs.foldl (fun s raw => (effect raw).getD s) s))).toList) := by
  induction rs generalizing s with
  | nil => simp [dialogue, ans]
  | cons a rs ih => simp only [List.cons_append, dialogue, List.foldl_cons, ih, List.append_assoc]

theorem T_append (rs : List Bytes) (raw : Bytes) :
    T E (rs ++ [raw]) = T E rs ++ ans E (stateAfter rs) raw ++ (request E.cfg E.mode (stateAfter (rs ++ [raw]))).toList := by
  rw [Fold.stateAfter_append, T, T, transcript, transcript, dialogue_append]
  simp only [stateAfter, List.append_assoc]

/-- The Error messages for them. -/
def L (tr : List Rec) : List Bytes := tr.flatMap fun x => if bad x then (complaint? x.ev).toList.flatMap (errs E) else []

/-- `out` and then `d` are made up of `a` and `e`, where `d` is the end of `a`. -/
def Ends (a e out d : List Bytes) : Prop := ∃ a', a = a' ++ d ∧ Interleaved a' e out

/-- Likewise, where `d` is the end of `e`. -/
def Apart (a e out d : List Bytes) : Prop := ∃ e', e = e' ++ d ∧ Interleaved a e' out

theorem Ends.nil {a e out : List Bytes} : Ends a e out [] ↔ Interleaved a e out :=
  ⟨fun ⟨a', h, h'⟩ => by rw [h, List.append_nil]; exact h', fun h => ⟨a, (List.append_nil a).symm, h⟩⟩

theorem Apart.nil {a e out : List Bytes} : Apart a e out [] ↔ Interleaved a e out :=
  ⟨fun ⟨e', h, h'⟩ => by rw [h, List.append_nil]; exact h', fun h => ⟨e, (List.append_nil e).symm, h⟩⟩

theorem Ends.send {a e out : List Bytes} {b : Bytes} (h : Ends a e out [b]) : Interleaved a e (out ++ [b]) := by
  obtain ⟨a', rfl, h⟩ := h
  exact h.snoc_left b

theorem Apart.send {a e out : List Bytes} {b : Bytes} (h : Apart a e out [b]) : Interleaved a e (out ++ [b]) := by
  obtain ⟨e', rfl, h⟩ := h
  exact h.snoc_right b

/-- `rs`: the datagrams read so far, `e`: the Error messages for other errors, `out`: what was sent so far, `d`: what the monitor still has to
send. -/
def Fact (st : St) (rs e out d : List Bytes) : S → Prop
  | .start => st = .down ∧ rs = [] ∧ (Ends [] e out d ∨ Apart [] e out d)
  | .pend raw a b outs => ∃ rs', rs = rs' ++ [raw] ∧ st = stateAfter rs' ∧ (∀ x, a = some x → x = st) ∧
      (∀ x, b = some x → x = st) ∧ (Ends (T E rs' ++ outs) e out d ∨ Apart (T E rs' ++ outs) e out d) ∧ (outs = [] → Apart (T E rs') e out d)
  | .upd x => x = stateAfter rs ∧ Ends (T E rs) e out (request E.cfg E.mode x).toList
  | .put _ r => st = stateAfter rs ∧ Ends (T E rs) e out r.toList
  | .got raw => ∃ rs', rs = rs' ++ [raw] ∧ st = stateAfter rs' ∧ Interleaved (T E rs') e out
  | _ => True

/-- What holds even if the connection has stopped. -/
def All (rs e out d : List Bytes) : Prop := ∃ a, a <+: T E rs ∧ (Ends a e out d ∨ Apart a e out d)

structure I (sh : Shared) (tr : List Rec) (ss : List S) : Prop where
  asp : sh.st.asp = true
  info : sh.info = ⟨3, 0⟩
  le : tot one ss ≤ 1
  mon : tot mon ss ≤ 1
  cl : ∀ j : Nat, ss[j]? = some .closing → sh.estClosed = true
  fact : sh.estClosed = false → ∀ (j : Nat) (s : S), ss[j]? = some s →
    Fact E sh.st (receives tr) (L E tr) (O tr) (ss.flatMap owed) s
  all : sh.estClosed = false → All E (receives tr) (L E tr) (O tr) (ss.flatMap owed)

theorem O_append (a b : List Rec) : O (a ++ b) = O a ++ O b := by simp [O]
theorem L_append (a b : List Rec) : L E (a ++ b) = L E a ++ L E b := by simp [L]
theorem L_nil {xs : List Rec} (h : ∀ x ∈ xs, complaint? x.ev = none) : L E xs = [] := by
  refine List.flatMap_eq_nil_iff.mpr fun x hx => ?_
  rw [h x hx]
  split <;> rfl

theorem owed_zero {s : S} (h : mon s = 0) : owed s = [] := by
  cases s <;> first | rfl | cases h

theorem owed_none {ss : List S} (h : tot mon ss = 0) : ss.flatMap owed = [] := by
  induction ss with
  | nil => rfl
  | cons a l ih =>
    rw [tot_cons] at h
    rw [List.flatMap_cons, ih (by omega), owed_zero (by omega)]; rfl

/-- There is only one monitor. -/
theorem owed_one {ss : List S} (h : tot mon ss ≤ 1) {i : Nat} {s : S} (hs : ss[i]? = some s) (hm : mon s = 1) :
    ss.flatMap owed = owed s := by
  induction ss generalizing i with
  | nil => simp at hs
  | cons a l ih =>
    rw [tot_cons] at h
    cases i with
    | zero =>
      simp at hs; subst hs
      rw [List.flatMap_cons, owed_none (by omega), List.append_nil]
    | succ i =>
      simp only [List.getElem?_cons_succ] at hs
      have := tot_ge mon hs
      rw [List.flatMap_cons, ih (by omega) hs, owed_zero (s := a) (by omega), List.nil_append]

theorem owed_set {ss : List S} {i : Nat} {s s' : S} (hs : ss[i]? = some s) (h : owed s' = owed s) :
    (ss.set i s').flatMap owed = ss.flatMap owed := by
  induction ss generalizing i with
  | nil => simp at hs
  | cons a l ih =>
    cases i with
    | zero => simp at hs; subst hs; simp [h]
    | succ i =>
      simp only [List.getElem?_cons_succ] at hs
      simp [List.flatMap_cons, ih hs]

variable {E}

theorem Fact.zero {st : St} {rs e out d : List Bytes} {s : S} (h : one s = 0) : Fact E st rs e out d s := by
  cases s <;> first | trivial | cases h

/-- A step that neither reads nor sends nor changes the state. -/
theorem I.plain {sh sh' : Shared} {tr : List Rec} {ss : List S} (h : I E sh tr ss) {i : Nat} {s : S} (hs : ss[i]? = some s)
    (s' : S) (gs : List S) (xs : List Rec) (h1 : one s' + tot one gs ≤ one s) (h1' : Script.mon s' + tot Script.mon gs ≤ Script.mon s)
    (h2 : sh'.st = sh.st) (h2' : sh'.info = sh.info) (h3 : sh'.estClosed = sh.estClosed) (h4 : receives xs = []) (h4' : O xs = []) (h4'' : L E xs = [])
    (h5 : s' = .closing → s = .closing) (h6 : .closing ∉ gs) (h8 : owed s' = owed s) (h9 : gs.flatMap owed = [])
    (h7 : ∀ rs e out d, (Script.mon s = 1 → d = owed s) → Fact E sh.st rs e out d s → Fact E sh.st rs e out d s' ∧ ∀ g ∈ gs, Fact E sh.st rs e out d g) :
    I E sh' (tr ++ xs) (ss.set i s' ++ gs) := by
  refine ⟨h2 ▸ h.asp, h2' ▸ h.info, ?_, ?_, ?_, ?_, fun hc => ?_⟩
  · have := tot_set one s' hs
    have := h.le
    rw [tot_append]; omega
  · have := tot_set Script.mon s' hs
    have := h.mon
    rw [tot_append]; omega
  · intro j hj
    rw [h3]
    rcases mem_set_cases hs hj with ⟨rfl, h8⟩ | ⟨hne, h8⟩ | h8
    · exact h.cl j (by rw [hs, h5 h8.symm])
    · exact h.cl j h8
    · exact absurd h8 h6
  · intro hc j t hj
    rw [h3] at hc
    rw [h2, Fold.receives_append, h4, List.append_nil, O_append, h4', List.append_nil, L_append, h4'', List.append_nil, List.flatMap_append, h9, List.append_nil,
      owed_set hs h8]
    have hf := h7 _ _ _ _ (fun hm => owed_one h.mon hs hm) (h.fact hc _ _ hs)
    rcases mem_set_cases hs hj with ⟨rfl, rfl⟩ | ⟨hne, h8⟩ | h8
    · exact hf.1
    · exact h.fact hc j t h8
    · exact hf.2 _ h8
  · rw [h3] at hc
    rw [Fold.receives_append, h4, List.append_nil, O_append, h4', List.append_nil, L_append, h4'', List.append_nil, List.flatMap_append, h9,
      List.append_nil, owed_set hs h8]
    exact h.all hc

/-- Any other step of one goroutine. -/
theorem I.step {sh sh' : Shared} {tr : List Rec} {ss : List S} (h : I E sh tr ss) {i : Nat} {s : S} (hs : ss[i]? = some s)
    (s' : S) (xs : List Rec) (h0 : sh'.st.asp = true) (h1 : one s' ≤ one s) (h1' : Script.mon s' ≤ Script.mon s)
    (h2' : sh'.info = sh.info) (h3 : sh'.estClosed = sh.estClosed)
    (h5 : s' ≠ .closing)
    (h6 : L E xs = [])
    (h7 : sh.estClosed = false →
      Fact E sh.st (receives tr) (L E tr) (O tr) (ss.flatMap owed) s →
      Fact E sh'.st (receives (tr ++ xs)) (L E tr) (O (tr ++ xs)) ((ss.set i s').flatMap owed) s' ∧
      (one s = 0 → ∀ t, Fact E sh.st (receives tr) (L E tr) (O tr) (ss.flatMap owed) t → Script.mon t + Script.mon s ≤ 1 →
        Fact E sh'.st (receives (tr ++ xs)) (L E tr) (O (tr ++ xs)) ((ss.set i s').flatMap owed) t) ∧
      (All E (receives tr) (L E tr) (O tr) (ss.flatMap owed) →
        All E (receives (tr ++ xs)) (L E tr) (O (tr ++ xs)) ((ss.set i s').flatMap owed))) :
    I E sh' (tr ++ xs) (ss.set i s') := by
  refine ⟨h0, h2' ▸ h.info, ?_, ?_, ?_, ?_, fun hc => ?_⟩
  · have := tot_set one s' hs
    have := h.le
    omega
  · have := tot_set Script.mon s' hs
    have := h.mon
    omega
  · intro j hj
    rw [h3]
    rcases mem_set_cases (gs := []) hs (by simpa using hj) with ⟨rfl, h8⟩ | ⟨hne, h8⟩ | h8
    · exact absurd h8.symm h5
    · exact h.cl j h8
    · cases h8
  · intro hc j t hj
    rw [h3] at hc
    rw [L_append, h6, List.append_nil]
    obtain ⟨h9, h10, -⟩ := h7 hc (h.fact hc _ _ hs)
    rcases mem_set_cases (gs := []) hs (by simpa using hj) with ⟨rfl, rfl⟩ | ⟨hne, h8⟩ | h8
    · exact h9
    · by_cases ho : one s = 0
      · exact h10 ho t (h.fact hc j t h8) (Nat.le_trans (tot_ge_two Script.mon hne h8 hs) h.mon)
      · have := tot_ge_two one hne h8 hs
        have := h.le
        exact Fact.zero (by omega)
    · cases h8
  · rw [h3] at hc
    rw [L_append, h6, List.append_nil]
    exact (h7 hc (h.fact hc _ _ hs)).2.2 (h.all hc)

theorem All.prefix {rs e out d : List Bytes} (raw : Bytes) (h : All E rs e out d) : All E (rs ++ [raw]) e out d := by
  obtain ⟨a, h1, h2⟩ := h
  refine ⟨a, h1.trans ?_, h2⟩
  rw [T_append, List.append_assoc]
  exact List.prefix_append _ _

theorem pres : Pres (D E) (I E) where
  env sh sh' tr ss h he := by
    cases he <;> exact ⟨h.asp, h.info, h.le, h.mon, h.cl, h.fact, h.all⟩
  call sh tr ss c h _ := by
    have e : ((ss ++ [(D E).born (.api c)]).flatMap owed) = ss.flatMap owed := by simp [D, born, owed]
    refine ⟨h.asp, h.info, by have := h.le; rw [tot_append]; simpa [tot, D, born, one] using this,
      by have := h.mon; rw [tot_append]; simpa [tot, D, born, Script.mon] using this, fun j hj => ?_, fun hc j s hj => ?_, fun hc => by rw [e]; exact h.all hc⟩
    · by_cases hj' : j < ss.length
      · rw [List.getElem?_append_left hj'] at hj; exact h.cl j hj
      · rw [List.getElem?_append_right (by omega)] at hj
        have := List.mem_of_getElem? hj
        simp [D, born] at this
    · rw [e]
      by_cases hj' : j < ss.length
      · rw [List.getElem?_append_left hj'] at hj; exact h.fact hc j s hj
      · rw [List.getElem?_append_right (by omega)] at hj
        have := List.mem_of_getElem? hj
        simp only [D, born, List.mem_singleton] at this
        subst this; trivial
  run sh sh' tr ss i g s o r h hs hok hx := by
    have hok : ok E g s o := hok
    have hmay : Facts.may o r := by
      have h1 := h.asp
      have h2 := h.info
      cases hx <;> simp_all [Facts.may, ok]
      omega
    refine ⟨hmay, ?_⟩
    show I E sh' (tr ++ [⟨i, g, o, r⟩]) (ss.set i (next E g s o r) ++ (spawned o).map born)
    have hO : ∀ xs : List Rec, (∀ x ∈ xs, sent? x.ev = none) → O xs = [] := by
      intro xs hxs
      refine List.filterMap_eq_nil_iff.mpr fun x hx => ?_
      have := hxs x hx
      unfold mine?
      split <;> simp [this]
    cases o with
    | read n =>
      obtain ⟨y, rfl⟩ := hok
      have hst : sh'.st = sh.st := by cases hx <;> rfl
      have hin : sh'.info = sh.info := by cases hx <;> rfl
      have hec : sh'.estClosed = sh.estClosed := by cases hx <;> rfl
      simp only [spawned, List.map_nil, List.append_nil]
      refine h.step hs _ _ (hst ▸ h.asp) ?_ ?_ hin hec ?_ (L_nil E (by simp [complaint?])) fun _ hf => ⟨?_, (fun h => by cases h), fun ha => ?_⟩
      · cases r <;> simp [next, one]
      · cases r <;> simp [next, Script.mon]
      · cases r <;> simp [next]
      · cases r with
        | none => trivial
        | some raw =>
          rw [O_append, hO [_] (by simp [sent?]), List.append_nil, Fold.receives_append]
          obtain ⟨h1, h2⟩ := hf
          exact ⟨receives tr, rfl, hst ▸ h1, Ends.nil.mp h2⟩
      · rw [O_append, hO [_] (by simp [sent?]), List.append_nil, Fold.receives_append]
        cases r with
        | none => rw [owed_set (s' := next E g (.put y none) (Op.read n) none) hs rfl, show receives [_] = [] from rfl, List.append_nil]; exact ha
        | some raw => rw [owed_set (s' := next E g (.put y none) (Op.read n) (some raw)) hs rfl]; exact ha.prefix raw
    | putSt x =>
      cases hx
      simp only [spawned, List.map_nil, List.append_nil]
      obtain ⟨hxa, rfl | ⟨rfl, -⟩⟩ := hok
      · refine h.step hs _ _ hxa (by simp [next, one]) (by simp [next, Script.mon]) rfl rfl (by simp [next]) (L_nil E (by simp [complaint?])) fun _ hf => ?_
        rw [O_append, hO [_] (by simp [sent?]), List.append_nil, Fold.receives_append, show receives [_] = [] from rfl, List.append_nil,
          owed_set (s' := next E g (.upd x) (Op.putSt x) ()) hs (by simp [next, owed])]
        refine ⟨?_, (fun h => by cases h), id⟩
        obtain ⟨h1, h2⟩ := hf
        simpa [next, Fact] using ⟨h1, h2⟩
      · have hcl := h.cl i hs
        simp only [next, if_true, set_self hs]
        refine ⟨hxa, h.info, h.le, h.mon, fun _ _ => hcl, (fun hc => ?_), fun hc => ?_⟩ <;> rw [hcl] at hc <;> cases hc
    | closeEst =>
      cases hx
      simp only [spawned, List.map_nil, List.append_nil]
      have e1 := tot_set one (next E g s Op.closeEst ()) hs
      have e2 := tot_set Script.mon (next E g s Op.closeEst ()) hs
      have := h.le
      have := h.mon
      exact ⟨h.asp, h.info, by simp only [next, one] at *; omega, by simp only [next, Script.mon] at *; omega, fun _ _ => rfl, nofun, nofun⟩
    | spawn g' =>
      cases hx
      cases g' with
      | packet raw =>
        have hs' : s = .got raw := hok
        subst hs'
        refine h.plain hs _ _ _ (by simp [next, one, spawned, born, tot]) (by simp [next, Script.mon, spawned, born, tot]) rfl rfl rfl rfl
          (hO _ (by simp [sent?])) (L_nil E (by simp [complaint?])) (by simp [next]) (by simp [spawned, born]) rfl rfl fun rs er out d hd hF => ⟨trivial, ?_⟩
        obtain ⟨rs', h1, h2, h3⟩ := hF
        have hd : d = [] := hd rfl
        simp only [spawned, List.map_cons, List.map_nil, List.mem_singleton, forall_eq, born]
        rw [hd]
        exact ⟨rs', h1, h2, by simp, by simp, .inr (Apart.nil.mpr (by rw [List.append_nil]; exact h3)), fun _ => Apart.nil.mpr h3⟩
      | start => cases hok
      | monitor => cases hok
      | monitorLoop => cases hok
      | _ => exact h.plain hs _ _ _ (by simp [next, spawned, born, tot, one]) (by simp [next, spawned, born, tot, Script.mon]) rfl rfl rfl rfl
              (hO _ (by simp [sent?])) (L_nil E (by simp [complaint?])) (by simp [next]) (by simp [spawned, born]) rfl rfl fun rs er out d hd hF =>
              ⟨hF, by simp [spawned, born, Fact]⟩
    | state =>
      cases hx
      refine h.plain hs _ _ _ ?_ ?_ rfl rfl rfl rfl (hO _ (by simp [sent?])) (L_nil E (by simp [complaint?])) ?_ (by simp [spawned]) ?_ rfl
        fun rs er out d hd hF => ⟨?_, by simp [spawned]⟩
      · cases s <;> simp [next, one, spawned, tot]
      · cases s <;> simp [next, Script.mon, spawned, tot]
      · cases s <;> simp [next]
      · cases s <;> simp [next, owed]
      · cases s with
        | pend raw a b outs =>
          obtain ⟨rs', h1, h2, h3, h4, h5, h6⟩ := hF
          refine ⟨rs', h1, h2, fun x hx => ?_, fun x hx => (Option.some.inj hx).symm, h5, h6⟩
          cases a with
          | none => exact (Option.some.inj hx).symm
          | some y => exact h3 x hx
        | _ => exact hF
    | monSelect =>
      cases hx
      exact h.plain hs _ _ _ (by simp [next, spawned, tot]) (by simp [next, spawned, tot]) rfl rfl rfl rfl (hO _ (by simp [sent?])) (L_nil E (by simp [complaint?]))
        (by simp [next]) (by simp [spawned]) rfl rfl fun rs er out d hd hF => ⟨hF, by simp [spawned]⟩
    | sendState x => cases hx
    | sendErr x => cases hx
    | write b inf =>
      have hst : sh'.st = sh.st := by cases hx <;> rfl
      have hin : sh'.info = sh.info := by cases hx <;> rfl
      have hec : sh'.estClosed = sh.estClosed := by cases hx <;> rfl
      have other : O [⟨i, g, Op.write b inf, r⟩] = [] → next E g s (Op.write b inf) r = s →
          I E sh' (tr ++ [⟨i, g, Op.write b inf, r⟩]) (ss.set i (next E g s (Op.write b inf) r) ++ (spawned (Op.write b inf)).map born) := by
        intro h1 h2
        rw [h2]
        exact h.plain hs _ _ _ (by simp [spawned, tot]) (by simp [spawned, tot]) hst hin hec rfl h1 (L_nil E (by simp [complaint?])) id (by simp [spawned]) rfl rfl
          fun rs er out d hd hF => ⟨hF, by simp [spawned]⟩
      cases g with
      | monitorLoop =>
        simp only [spawned, List.map_nil, List.append_nil]
        rcases hok with rfl | ⟨x, rfl⟩
        · have hm : (ss.set i S.sel).flatMap owed = owed S.sel := by
            refine owed_one (i := i) ?_ ?_ rfl
            · have := tot_set Script.mon S.sel hs
              have := h.mon
              simp only [Script.mon] at *; omega
            · obtain ⟨hi, -⟩ := List.getElem?_eq_some_iff.mp hs
              simp [hi]
          have hm' := owed_one h.mon hs rfl
          refine h.step hs _ _ (hst ▸ h.asp) (by simp [next, one]) (by simp [next, Script.mon]) hin hec (by simp [next]) (L_nil E (by simp [complaint?]))
            fun _ hf => ?_
          have hsel : next E .monitorLoop (S.reply [b]) (Op.write b inf) r = S.sel := rfl
          have e : O [⟨i, .monitorLoop, Op.write b inf, r⟩] = [b] := by simp [O, mine?, sent?]
          rw [hsel, hst, hm, hm', O_append, Fold.receives_append, show receives [_] = [] from rfl, List.append_nil, e]
          refine ⟨trivial, fun _ t ht hmt => ?_, fun ⟨a, h1, h2⟩ => ⟨a, h1, .inl (Ends.nil.mpr (h2.elim Ends.send Apart.send))⟩⟩
          have key : ∀ a er, Ends a er (O tr) [b] ∨ Apart a er (O tr) [b] → Apart a er (O tr ++ [b]) [] :=
            fun a er h => Apart.nil.mpr (h.elim Ends.send Apart.send)
          cases t <;> simp only [Script.mon] at hmt <;> first | omega | trivial | skip
          · obtain ⟨h1, h2, h3⟩ := ht
            exact ⟨h1, h2, .inr (key _ _ h3)⟩
          · obtain ⟨rs', h1, h2, h3, h4, h5, h6⟩ := ht
            exact ⟨rs', h1, h2, h3, h4, .inr (key _ _ h5), fun h => key _ _ (.inr (h6 h))⟩
        · refine h.step hs _ _ (hst ▸ h.asp) (by simp [next, one]) (by simp [next, Script.mon]) hin hec (by simp [next]) (L_nil E (by simp [complaint?]))
            fun _ hf => ?_
          obtain ⟨h1, h2⟩ := hf
          have e : O [⟨i, .monitorLoop, Op.write b inf, r⟩] = [b] := by simp [O, mine?, sent?]
          rw [O_append, Fold.receives_append, show receives [_] = [] from rfl, List.append_nil, e,
            owed_set (s' := next E .monitorLoop (.put x (some b)) (Op.write b inf) r) hs rfl, owed_one h.mon hs rfl]
          exact ⟨⟨hst ▸ h1, Ends.nil.mpr (Ends.send h2)⟩, (fun h => by cases h), fun _ => ⟨_, List.prefix_rfl, .inl (Ends.nil.mpr (Ends.send h2))⟩⟩
      | packet raw =>
        simp only [spawned, List.map_nil, List.append_nil]
        obtain ⟨a, b', rfl, hwi⟩ : ∃ a b', s = .pend raw a b' [] ∧ within E raw a [b] := by
          cases s <;> first | exact hok.elim | exact ⟨_, _, by rw [hok.1, hok.2.1], hok.2.2⟩
        refine h.step hs _ _ (hst ▸ h.asp) (by simp [next, one]) (by simp [next, Script.mon]) hin hec (by simp [next]) (L_nil E (by simp [complaint?]))
            fun _ hf => ?_
        obtain ⟨rs', h1, h2, h3, h4, h5, h6⟩ := hf
        rw [O_append, Fold.receives_append, show receives [_] = [] from rfl, List.append_nil,
          owed_set (s' := next E (.packet raw) (.pend raw a b' []) (Op.write b inf) r) hs rfl]
        have e : O [⟨i, .packet raw, Op.write b inf, r⟩] = [b] := by simp [O, mine?, sent?]
        rw [e]
        obtain ⟨er, h7, h8⟩ := h6 rfl
        refine ⟨⟨rs', h1, hst ▸ h2, hst ▸ h3, hst ▸ h4, .inr ⟨er, h7, h8.snoc_left b⟩, by simp⟩, (fun h => by cases h), fun _ =>
          ⟨T E rs' ++ [b], ?_, .inr ⟨er, h7, h8.snoc_left b⟩⟩⟩
        rw [h1, T_append, List.append_assoc, List.prefix_append_right_inj]
        exact (hwi _ (fun y hy => (h3 y hy).trans h2)).trans (List.prefix_append _ _)
      | _ => exact other rfl rfl
    | _ =>
      have hst : sh'.st = sh.st := by cases hx <;> rfl
      have hin : sh'.info = sh.info := by cases hx <;> rfl
      have hec : sh'.estClosed = sh.estClosed := by cases hx <;> rfl
      exact h.plain hs _ _ _ (by simp [next, spawned, tot]) (by simp [next, spawned, tot]) hst hin hec rfl (hO _ (by simp [sent?])) (L_nil E (by simp [complaint?]))
        (by simp [next]) (by simp [spawned]) rfl rfl fun rs er out d hd hF => ⟨hF, by simp [spawned]⟩
  sync sh sh' tr ss i j gi gj si sj oi oj ri rj h hij hsi hsj hoi hoj hx := by
    have hoi : ok E gi si oi := hoi
    have hoj : ok E gj sj oj := hoj
    have hmi : Facts.may oi ri ∧ Facts.may oj rj := by cases hx <;> simp_all [Facts.may, ok]
    refine ⟨hmi.1, hmi.2, ?_⟩
    show I E sh' (tr ++ [⟨i, gi, oi, ri⟩, ⟨j, gj, oj, rj⟩]) ((ss.set i (next E gi si oi ri)).set j (next E gj sj oj rj))
    have hO : ∀ xs : List Rec, (∀ x ∈ xs, sent? x.ev = none) → O xs = [] := by
      intro xs hxs
      refine List.filterMap_eq_nil_iff.mpr fun x hx => ?_
      have := hxs x hx
      unfold mine?
      split <;> simp [this]
    have hO : O [⟨i, gi, oi, ri⟩, ⟨j, gj, oj, rj⟩] = [] := hO _ (by cases hx <;> simp [sent?])
    have hR : receives [⟨i, gi, oi, ri⟩, ⟨j, gj, oj, rj⟩] = [] := by cases hx <;> rfl
    have plain : L E [⟨i, gi, oi, ri⟩, ⟨j, gj, oj, rj⟩] = [] → next E gi si oi ri = si → next E gj sj oj rj = sj → sh'.st = sh.st → sh'.info = sh.info → sh'.estClosed = sh.estClosed →
        I E sh' (tr ++ [⟨i, gi, oi, ri⟩, ⟨j, gj, oj, rj⟩]) ((ss.set i (next E gi si oi ri)).set j (next E gj sj oj rj)) := by
      intro h0 h1 h2 h3 h3' h4
      rw [h1, set_self hsi, h2]
      have := h.plain (sh' := sh') hsj sj [] _ (by simp [tot]) (by simp [tot]) h3 h3' h4 hR hO h0 id (by simp) rfl rfl fun rs er out d hd hF => ⟨hF, by simp⟩
      simpa using this
    have hj' : ∀ s, (ss.set i s)[j]? = some sj := fun s => by rw [getElem?_set_ne' _ hij]; exact hsj
    have t1 := fun s => tot_set one s hsi
    have t2 := fun s s' => tot_set one s' (hj' s)
    have m1 := fun s => tot_set Script.mon s hsi
    have m2 := fun s s' => tot_set Script.mon s' (hj' s)
    have hle := h.le
    have hmo := h.mon
    -- the others
    have cases3 : ∀ (k : Nat) (t s s' : S), ((ss.set i s).set j s')[k]? = some t → (k = j ∧ t = s') ∨ (k = i ∧ t = s) ∨
        (k ≠ i ∧ k ≠ j ∧ ss[k]? = some t) := by
      intro k t s s' hk
      rcases mem_set_cases (gs := []) (hj' s) (by simpa using hk) with h2 | ⟨hne, h2⟩ | h2
      · exact .inl h2
      · rcases mem_set_cases (gs := []) hsi (by simpa using h2) with h3 | ⟨hne', h3⟩ | h3
        · exact .inr (.inl h3)
        · exact .inr (.inr ⟨hne', hne, h3⟩)
        · cases h3
      · cases h2
    cases hx with
    | est => exact plain (L_nil E (by simp [complaint?])) rfl rfl rfl rfl rfl
    | ack => exact plain (L_nil E (by simp [complaint?])) rfl rfl rfl rfl rfl
    | @err e =>
      have hsj' : sj = .sel := hoj
      subst hsj'
      have hn1 : one (next E gi si (Op.sendErr e) ()) = one si := by cases si <;> rfl
      have hn2 : Script.mon (next E gi si (Op.sendErr e) ()) = Script.mon si := by cases si <;> rfl
      have hn3 : next E gi si (Op.sendErr e) () = .closing → si = .closing := by cases si <;> simp [next]
      have e1 := t1 (next E gi si (Op.sendErr e) ())
      have e2 := t2 (next E gi si (Op.sendErr e) ()) (next E gj .sel Op.monSelect (.err e))
      have e3 := m1 (next E gi si (Op.sendErr e) ())
      have e4 := m2 (next E gi si (Op.sendErr e) ()) (next E gj .sel Op.monSelect (.err e))
      have f1 : one S.sel = 0 := rfl
      have f2 : one (next E gj .sel Op.monSelect (.err e)) = 0 := rfl
      have f3 : Script.mon S.sel = 1 := rfl
      have f4 : Script.mon (next E gj .sel Op.monSelect (.err e)) = 1 := rfl
      have hmon' : tot Script.mon ((ss.set i (next E gi si (Op.sendErr e) ())).set j (next E gj .sel Op.monSelect (.err e))) ≤ 1 := by omega
      have hd : ss.flatMap owed = [] := owed_one h.mon hsj rfl
      have hd' : ((ss.set i (next E gi si (Op.sendErr e) ())).set j (next E gj .sel Op.monSelect (.err e))).flatMap owed = errs E e := by
        refine owed_one (i := j) hmon' ?_ f4
        obtain ⟨hj, -⟩ := List.getElem?_eq_some_iff.mp (hj' (next E gi si (Op.sendErr e) ()))
        exact List.getElem?_set_self hj
      have hLj : L E [⟨j, gj, Op.monSelect, .err e⟩] = [] := L_nil E (by simp [complaint?])
      have hL : L E [⟨i, gi, Op.sendErr e, ()⟩, ⟨j, gj, Op.monSelect, .err e⟩] = if bad ⟨i, gi, Op.sendErr e, ()⟩ then errs E e else [] := by
        rw [show [_, _] = [⟨i, gi, Op.sendErr e, ()⟩] ++ [(⟨j, gj, Op.monSelect, .err e⟩ : Rec)] from rfl, L_append, hLj, List.append_nil]
        simp [L, complaint?]
      -- the error is one that the order of datagrams does not determine, or the sender is handling a datagram, or there is nothing to send
      have hcase : (bad ⟨i, gi, Op.sendErr e, ()⟩ = true ∧ next E gi si (Op.sendErr e) () = si) ∨
          (bad ⟨i, gi, Op.sendErr e, ()⟩ = false ∧ ∃ raw a b outs, si = .pend raw a b outs ∧ meaning raw ≠ some .heartbeatAck ∧
            within E raw a (outs ++ errs E e)) ∨
          (bad ⟨i, gi, Op.sendErr e, ()⟩ = false ∧ errs E e = [] ∧ next E gi si (Op.sendErr e) () = si) := by
        cases gi with
        | packet raw =>
          obtain ⟨a, b, outs, h1, h2⟩ : ∃ a b outs, si = .pend raw a b outs ∧ (meaning raw ≠ some .heartbeatAck → within E raw a (outs ++ errs E e)) := by
            cases si <;> first | exact hoi.elim | exact ⟨_, _, _, by rw [hoi.1], hoi.2⟩
          by_cases hm : meaning raw = some .heartbeatAck
          · exact .inl ⟨by simp [bad, hm], by rw [h1]; simp [next, hm]⟩
          · exact .inr (.inl ⟨by simp [bad, hm], raw, a, b, outs, h1, hm, h2 hm⟩)
        | data m => exact .inl ⟨rfl, by rw [show si = .idle from hoi]; rfl⟩
        | _ =>
          have h0 : errs E e = [] := hoi
          exact .inr (.inr ⟨rfl, h0, by cases si <;> simp [next, h0]⟩)
      have key : ∀ a, Ends a (L E tr) (O tr) [] ∨ Apart a (L E tr) (O tr) [] → Apart a (L E tr ++ errs E e) (O tr) (errs E e) :=
        fun a h => ⟨L E tr, rfl, h.elim Ends.nil.mp Apart.nil.mp⟩
      refine ⟨h.asp, h.info, by omega, hmon', fun k hk => ?_, fun hc k t hk => ?_, fun hc => ?_⟩
      · rcases cases3 _ _ _ _ hk with ⟨-, h1⟩ | ⟨rfl, h1⟩ | ⟨-, -, h1⟩
        · cases h1
        · exact h.cl k (by rw [hsi, hn3 h1.symm])
        · exact h.cl k h1
      · rw [hd', Fold.receives_append, hR, List.append_nil, O_append, hO, List.append_nil, L_append, hL]
        have hfi := h.fact hc i _ hsi
        rw [hd] at hfi
        rcases hcase with ⟨hbad, hs0⟩ | ⟨hbad, raw, a, b, outs, rfl, hm, -⟩ | ⟨hbad, h0, hs0⟩
        · rw [hbad, if_pos rfl]
          have key' : ∀ t, Script.mon t = 0 → Fact E sh.st (receives tr) (L E tr) (O tr) [] t →
              Fact E sh.st (receives tr) (L E tr ++ errs E e) (O tr) (errs E e) t := by
            intro t ht hF
            cases t <;> simp only [Script.mon] at ht <;> first | omega | trivial | skip
            · obtain ⟨h1, h2, h3⟩ := hF
              exact ⟨h1, h2, .inr (key _ h3)⟩
            · obtain ⟨rs', h1, h2, h3, h4, h5, h6⟩ := hF
              exact ⟨rs', h1, h2, h3, h4, .inr (key _ h5), fun h => key _ (.inr (h6 h))⟩
          rcases cases3 _ _ _ _ hk with ⟨-, h1⟩ | ⟨rfl, h1⟩ | ⟨hne, hne', h1⟩
          · rw [h1]; trivial
          · rw [h1, hs0]
            have := tot_ge_two Script.mon hij hsi hsj
            exact key' _ (by omega) hfi
          · have := tot_ge_two Script.mon hne' h1 hsj
            have hF := h.fact hc k t h1
            rw [hd] at hF
            exact key' _ (by omega) hF
        · rw [hbad, if_neg (by simp), List.append_nil]
          rcases cases3 _ _ _ _ hk with ⟨-, h1⟩ | ⟨-, h1⟩ | ⟨hne, -, h1⟩
          · rw [h1]; trivial
          · rw [h1]
            obtain ⟨rs', g1, g2, g3, g4, g5, g6⟩ := hfi
            have g5 : Interleaved (T E rs' ++ outs) (L E tr) (O tr) := g5.elim Ends.nil.mp Apart.nil.mp
            simp only [next, if_neg hm]
            refine ⟨rs', g1, g2, g3, g4, .inl ⟨_, (List.append_assoc _ _ _).symm, g5⟩, fun h => ?_⟩
            obtain ⟨h2, h3⟩ := List.append_eq_nil_iff.mp h
            rw [h3]
            rw [h2, List.append_nil] at g5
            exact Apart.nil.mpr g5
          · have := tot_ge_two one hne h1 hsi
            have : one (.pend raw a b outs) = 1 := rfl
            exact Fact.zero (by omega)
        · rw [hbad, if_neg (by simp), List.append_nil, h0]
          rcases cases3 _ _ _ _ hk with ⟨-, h1⟩ | ⟨rfl, h1⟩ | ⟨hne, -, h1⟩
          · rw [h1]; trivial
          · rw [h1, hs0]; exact hfi
          · have := h.fact hc k t h1
            rw [hd] at this; exact this
      · rw [hd', Fold.receives_append, hR, List.append_nil, O_append, hO, List.append_nil, L_append, hL]
        have hfi := h.fact hc i _ hsi
        have hal := h.all hc
        rw [hd] at hfi hal
        rcases hcase with ⟨hbad, -⟩ | ⟨hbad, raw, a, b, outs, rfl, hm, hwi⟩ | ⟨hbad, h0, -⟩
        · rw [hbad, if_pos rfl]
          obtain ⟨a, h1, h2⟩ := hal
          exact ⟨a, h1, .inr (key _ h2)⟩
        · rw [hbad, if_neg (by simp), List.append_nil]
          obtain ⟨rs', g1, g2, g3, g4, g5, g6⟩ := hfi
          have g5 : Interleaved (T E rs' ++ outs) (L E tr) (O tr) := g5.elim Ends.nil.mp Apart.nil.mp
          refine ⟨T E rs' ++ (outs ++ errs E e), ?_, .inl ⟨_, (List.append_assoc _ _ _).symm, g5⟩⟩
          rw [g1, T_append, List.append_assoc, List.prefix_append_right_inj]
          exact (hwi _ (fun y hy => (g3 y hy).trans g2)).trans (List.prefix_append _ _)
        · rw [hbad, if_neg (by simp), List.append_nil, h0]
          exact hal
    | @state st =>
      have hsj' : sj = .sel := hoj
      subst hsj'
      obtain ⟨hst, hoi⟩ := hoi
      have hi1 : one si = 1 ∧ Script.mon si = 0 := by
        cases si <;> first | exact ⟨rfl, rfl⟩ | cases hoi
      have e1 := t1 .idle
      have e2 := t2 .idle (.upd st)
      have e3 := m1 .idle
      have e4 := m2 .idle (.upd st)
      have f1 : one S.idle = 0 := rfl
      have f2 : one S.sel = 0 := rfl
      have f3 : one (S.upd st) = 1 := rfl
      have f4 : Script.mon S.idle = 0 := rfl
      have f5 : Script.mon S.sel = 1 := rfl
      have f6 : Script.mon (S.upd st) = 1 := rfl
      have hd : ss.flatMap owed = [] := owed_one h.mon hsj rfl
      show I E sh _ ((ss.set i .idle).set j (.upd st))
      have hL : L E [⟨i, gi, Op.sendState st, ()⟩, ⟨j, gj, Op.monSelect, .state st⟩] = [] := L_nil E (by simp [complaint?])
      have hd' : ((ss.set i .idle).set j (.upd st)).flatMap owed = [] := by
        refine owed_one (i := j) (by omega) ?_ f6
        obtain ⟨hj, -⟩ := List.getElem?_eq_some_iff.mp (hj' .idle)
        exact List.getElem?_set_self hj
      refine ⟨h.asp, h.info, by omega, by omega, fun k hk => ?_, fun hc k t hk => ?_, fun hc => ?_⟩
      · rcases cases3 _ _ _ _ hk with ⟨-, h1⟩ | ⟨rfl, h1⟩ | ⟨-, -, h1⟩
        · cases h1
        · cases h1
        · exact h.cl k h1
      · have hfi := h.fact hc i _ hsi
        rw [hd] at hfi
        rw [Fold.receives_append, hR, List.append_nil, O_append, hO, List.append_nil, L_append, hL, List.append_nil]
        rcases cases3 _ _ _ _ hk with ⟨-, h1⟩ | ⟨-, h1⟩ | ⟨hne, -, h1⟩
        · rw [h1]
          cases si with
          | start =>
            have hoi : st = .down := hoi
            obtain ⟨g1, g2, g3⟩ := hfi
            have g3 : Interleaved [] (L E tr) (O tr) := g3.elim Ends.nil.mp Apart.nil.mp
            rw [g2, hoi]
            exact ⟨rfl, [], by simp [T, transcript, dialogue], g3⟩
          | pend raw a b outs =>
            obtain ⟨s, s', rfl, rfl, g7, g8⟩ := hoi
            obtain ⟨rs', g1, g2, g3, g4, g5, g6⟩ := hfi
            have g5 : Interleaved (T E rs' ++ outs) (L E tr) (O tr) := g5.elim Ends.nil.mp Apart.nil.mp
            have g3 := g3 _ rfl
            have g4 := g4 _ rfl
            have hs : st = stateAfter (receives tr) := by rw [g1, Fold.stateAfter_append, g7, g4, g2]
            refine ⟨hs, _, ?_, g5⟩
            rw [hs, g1, T_append, g8, g3, g2]
          | _ => cases hoi
        · rw [h1]; trivial
        · have := tot_ge_two one hne h1 hsi
          exact Fact.zero (by omega)
      · have hal := h.all hc
        rw [hd] at hal
        rw [hd', Fold.receives_append, hR, List.append_nil, O_append, hO, List.append_nil, L_append, hL, List.append_nil]
        exact hal
  crash sh tr ss i g s o h _ _ _ := ⟨h.asp, h.info, h.le, h.mon, h.cl, h.fact, h.all⟩

theorem reach {w : World} (h : Reachable E w) : ∃ ss, (D E).Linked w ss ∧ I E w.sh w.trace ss := by
  refine Disc.reach (good E) pres ⟨rfl, rfl, by simp [D, born, tot, one], by simp [D, born, tot, Script.mon], fun j hj => ?_, fun _ j s hj => ?_,
    fun _ => ⟨[], List.nil_prefix, .inl (Ends.nil.mpr .nil)⟩⟩ h
  · rcases j with _ | _ | _ | j <;> simp [D, born] at hj
  · rcases j with _ | _ | _ | j <;> simp [D, born] at hj <;> subst hj
    · trivial
    · exact ⟨rfl, rfl, .inl (Ends.nil.mpr .nil)⟩
    · trivial

end M3.Conn.Script
