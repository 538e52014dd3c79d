import Verif.Lemmas.Conn.Code

/- Facts about single operations that hold in all executions. -/

set_option autoImplicit false
set_option linter.unusedSimpArgs false

namespace M3.Conn

/-- The three states the library moves between. -/
def St.asp : St → Bool
  | .down | .inactive | .active => true
  | _ => false

namespace Facts

/-- Class and type octets of what the library sends by itself. The reply to a heartbeat has the class octet
of the heartbeat, which need not be 3 (`C21`). -/
def own (g : Gor) (d : Bytes) : Prop :=
  (d.getD 2 0, d.getD 3 0) ∈
    ([(0, 0), (3, 1), (3, 3), (3, 4), (3, 5), (4, 1), (4, 3), (4, 4)] : List (UInt8 × UInt8)) ∨
  ∃ raw m, g = .packet raw ∧ M3UA.parse raw = .ok (.heartbeat m) ∧
    (d.getD 2 0, d.getD 3 0) = (raw.getD 2 0, 6)

theorem own_of {g : Gor} {m : M3UA} (c t : UInt8) (hc : m.header.cls = c) (ht : m.header.typ = t) (h : (c, t) ∈
    ([(0, 0), (3, 1), (3, 3), (3, 4), (3, 5), (4, 1), (4, 3), (4, 4)] : List (UInt8 × UInt8))) : own g m.wire := by
  obtain ⟨-, h2, h3⟩ := m.wire_octets
  exact .inl (by rw [h2, h3, hc, ht]; exact h)

theorem own_reply {g : Gor} {E : Env} {e : CErr} {m : M3UA} (h : reply E e = some m) : own g m.wire := by
  cases e <;> simp only [reply, Option.some.injEq, reduceCtorEq] at h <;> subst h <;> exact own_of 0 0 rfl rfl (by decide)

theorem own_heartbeat {raw : Bytes} {m : Msg.Heartbeat} (h : M3UA.parse raw = .ok (.heartbeat m)) :
    own (.packet raw) (M3UA.heartbeat { m with header := { m.header with typ := 6 } }).wire := by
  refine .inr ⟨raw, m, rfl, h, ?_⟩
  rw [(M3UA.wire_octets _).2.1, (M3UA.wire_octets _).2.2, (M3UA.parse_octets h).2.1]
  rfl

theorem own_aspUp {g : Gor} (a b : Option Param) : own g (M3UA.aspUp (Msg.AspUp.new a b)).wire :=
  own_of 3 1 rfl rfl (by decide)

theorem own_aspUpAck {g : Gor} (a b : Option Param) : own g (M3UA.aspUpAck (Msg.AspUpAck.new a b)).wire :=
  own_of 3 4 rfl rfl (by decide)

theorem own_aspDownAck {g : Gor} (a : Option Param) : own g (M3UA.aspDownAck (Msg.AspDownAck.new a)).wire :=
  own_of 3 5 rfl rfl (by decide)

theorem own_aspActive {g : Gor} (a b c : Option Param) : own g (M3UA.aspActive (Msg.AspActive.new a b c)).wire :=
  own_of 4 1 rfl rfl (by decide)

theorem own_aspActiveAck {g : Gor} (a b c : Option Param) : own g (M3UA.aspActiveAck (Msg.AspActiveAck.new a b c)).wire :=
  own_of 4 3 rfl rfl (by decide)

theorem own_aspInactiveAck {g : Gor} (a b : Option Param) : own g (M3UA.aspInactiveAck (Msg.AspInactiveAck.new a b)).wire :=
  own_of 4 4 rfl rfl (by decide)

theorem own_beat {g : Gor} (a b : Option Param) :
    own g (M3UA.heartbeat { Msg.Heartbeat.new a with heartbeatData := b }).wire :=
  own_of 3 3 rfl rfl (by decide)

/-- What may be handed to SCTP in the course of what. -/
def sent (E : Env) : Gor → Bytes → Info → Prop
  | .api (.write b), d, i => (1 ≤ i.stream ∧ i.stream ≤ E.maxStream) ∧ d = (dataMsg E (some (userPD E b))).wire
  | .api (.writeToStream b s), d, i => i.stream = s ∧ d = (dataMsg E (some (userPD E b))).wire
  | .api (.writePD pd), d, i => (1 ≤ i.stream ∧ i.stream ≤ E.maxStream) ∧ d = (dataMsg E pd).wire
  | .api (.writePDToStream pd s), d, i => i.stream = s ∧ d = (dataMsg E pd).wire
  | .api (.writeSignal m), d, i => i.stream = 0 ∧ d = m.wire
  | .api _, _, _ => False
  | g, d, i => i.stream = 0 ∧ own g d

theorem choose_range {r : Nat} {m : UInt16} (h : r < m.toNat) :
    1 ≤ UInt16.ofNat r + 1 ∧ UInt16.ofNat r + 1 ≤ m := by
  have hm := m.toNat_lt
  have hr : (UInt16.ofNat r).toNat = r := by simp [UInt16.toNat_ofNat']; omega
  have : (UInt16.ofNat r + 1).toNat = r + 1 := by
    rw [UInt16.toNat_add, hr]; show (r + 1) % _ = _; omega
  constructor
  · rw [UInt16.le_iff_toNat_le, this]; show 1 ≤ r + 1; omega
  · rw [UInt16.le_iff_toNat_le, this]; omega

variable (E : Env)

def ok (g : Gor) : Op → Prop
  | .sendState s => s.asp = true
  | .putSt s => s.asp = true
  | .sendErr (.invalidStream _) => False
  | .write d i => i.ppid = 3 ∧ sent E g d i
  | .read n => n = 1500
  | .done (.state s) => s.asp = true
  | .done (.stream n) => g = .api .streamID → n = 0
  | _ => True

def may : (o : Op) → Resp o → Prop
  | .state, s => s.asp = true
  | .getSt, s => s.asp = true
  | .info, i => i = ⟨3, 0⟩
  | .monSelect, .state s => s.asp = true
  | .intn n, r => r < n
  | .read n, some raw => raw.length ≤ n
  | .rand, some d => d.length = 128
  | _, _ => True

/-- Discipline: states are `asp`, the stream is 0. -/
def D : Disc Unit where
  start _ _ := True
  born _ := ()
  ok g _ o := ok E g o
  may _ _ o r := may o r
  next _ _ _ _ := ()

theorem D_ok {E : Env} {g s o} : (D E).ok g s o = ok E g o := rfl
theorem D_may {E : Env} {g s o r} : (D E).may g s o r = may o r := rfl
theorem D_next {E : Env} {g s o r} : (D E).next g s o r = () := rfl
theorem D_post {E : Env} : (D E).post = fun _ _ => True := by
  funext s r; cases r <;> rfl

/-- Common simplification of the obligations. -/
macro "facts_simp" : tactic => `(tactic| simp +contextual [St.asp, sigInfo_std, sent, own_aspUp, own_aspUpAck,
  own_aspDownAck, own_aspActive, own_aspActiveAck, own_aspInactiveAck, own_beat])

theorem good : (D E).Good E where
  main := trivial
  init := trivial
  monitor := trivial
  api _ := trivial
  spawn _ _ _ _ := trivial
  body g s _ := by
    rw [D_post]
    cases g with
    | monitorLoop =>
      obtain ⟨mode, cfg, hb, ms⟩ := E
      cases mode <;> wp_code [D_ok, D_may, D_next, ok, may] <;> facts_simp <;>
        exact fun _ _ h => own_reply h
    | packet raw =>
      rw [body, packet_eq]
      cases hp : M3UA.parse raw with
      | ok m =>
        cases m <;> wp_code [D_ok, D_may, D_next, ok, may] <;> facts_simp
        exact fun _ _ _ _ => own_heartbeat hp
      | _ => wp_code []
    | api c =>
      cases c <;> wp_code [D_ok, D_may, D_next, ok, may] <;>
        simp +contextual [St.asp, sigInfo_std, sent, choose_range] <;>
        exact fun _ _ _ h _ _ _ => (choose_range h).1
    | _ => wp_code [D_ok, D_may, D_next, ok, may, St.asp] <;> facts_simp

/-- What is known about a completed operation. -/
def Rec.Fact (x : Rec) : Prop := ok E x.gor x.ev.op ∧ may x.ev.op x.ev.resp

def I (sh : Shared) (tr : List Rec) (_ : List Unit) : Prop :=
  sh.st.asp = true ∧ sh.info = ⟨3, 0⟩ ∧ ∀ x ∈ tr, Rec.Fact E x

theorem pres : Pres (D E) (I E) where
  env sh sh' tr ss h he := by cases he <;> exact h
  call sh tr ss c h _ := h
  run sh sh' tr ss i g s o r h _ hok hx := by
    obtain ⟨h1, h2, h3⟩ := h
    have hok : ok E g o := hok
    have key : may o r ∧ sh'.st.asp = true ∧ sh'.info = ⟨3, 0⟩ := by
      cases hx <;> simp_all [may, ok]
      omega
    refine ⟨key.1, key.2.1, key.2.2, fun x hx => ?_⟩
    rcases List.mem_append.mp hx with hx | hx
    · exact h3 x hx
    · simp only [List.mem_singleton] at hx; subst hx; exact ⟨hok, key.1⟩
  sync sh sh' tr ss i j gi gj si sj oi oj ri rj h _ _ _ hoi hoj hx := by
    obtain ⟨h1, h2, h3⟩ := h
    have hoi : ok E gi oi := hoi
    have hoj : ok E gj oj := hoj
    have key : may oi ri ∧ may oj rj ∧ sh'.st.asp = true ∧ sh'.info = ⟨3, 0⟩ := by
      cases hx <;> simp_all [may, ok]
    refine ⟨key.1, key.2.1, key.2.2.1, key.2.2.2, fun x hx => ?_⟩
    rcases List.mem_append.mp hx with hx | hx
    · exact h3 x hx
    · simp only [List.mem_cons, List.not_mem_nil, or_false] at hx
      rcases hx with rfl | rfl
      · exact ⟨hoi, key.1⟩
      · exact ⟨hoj, key.2.1⟩
  crash sh tr ss i g s o h _ _ _ := h

theorem reach {E : Env} {w : World} (h : Reachable E w) :
    w.sh.st.asp = true ∧ w.sh.info = ⟨3, 0⟩ ∧ ∀ x ∈ w.trace, Rec.Fact E x := by
  obtain ⟨ss, -, hi⟩ := Disc.reach (good E) (pres E) (by exact ⟨rfl, rfl, by simp⟩) h
  exact hi

end Facts

end M3.Conn
