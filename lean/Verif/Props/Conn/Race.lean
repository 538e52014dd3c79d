import Verif.Spec.Race
import Verif.Lemmas.Conn.Race
import Verif.Lemmas.Conn.Lock
import Verif.Props.Conn.Heartbeats
import Verif.Props.Conn.Compared

/- C92: data races. -/

set_option autoImplicit false
set_option linter.unusedSimpArgs false

namespace M3.Conn

open Spec

/-- Who accesses `c.state` without going through `State()` holds the lock. -/
theorem Raced.holds {E : Env} {w : World} (h : Reachable E w) {i : Nat} {g : Gor} {e : List Ev} {o : Op} {k : Resp o → Prog (Option Gor)}
    (hi : w.threads[i]? = some ⟨g, e, .op o k⟩) (ho : o = .getSt ∨ ∃ s, o = .putSt s) :
    ∃ (ss : List Lock.S) (s : Lock.S), (Lock.D E).Linked w ss ∧ Lock.I w.sh ss ∧ ss[i]? = some s ∧ s.ph ≠ .out := by
  obtain ⟨ss, hl, hI⟩ := Lock.reach h
  obtain ⟨s, hs⟩ := getElem?_some_of_length hl.1 hi
  have a := (hl.2 i _ s hi hs).1.1
  refine ⟨ss, s, hl, hI, hs, ?_⟩
  rcases ho with rfl | ⟨x, rfl⟩
  · have a : s.ph = .held := a
    rw [a]; nofun
  · rcases a with ⟨-, y, hy⟩ | ⟨hy, -⟩ <;> rw [hy] <;> nofun

/-- There is no race about the state of the connection. -/
theorem c92_state {E : Env} {w : World} (h : Reachable E w) (i j : Nat) : ¬ Race w .state i j := by
  rintro ⟨hij, gi, gj, oi, oj, b, ⟨ei, ki, ri, shi, -, hi, -⟩, ⟨ej, kj, rj, shj, -, hj, hxj⟩, hti, htj⟩
  obtain ⟨x, rfl⟩ : ∃ s, oi = .putSt s := by
    cases oi <;> simp only [touches] at hti
    case putSt s => exact ⟨s, rfl⟩
    case getBeat => cases hr : w.sh.beatRef <;> simp [hr] at hti
    all_goals simp at hti
  obtain ⟨ss, s, hl, hI, hs, hp⟩ := Raced.holds h hi (.inr ⟨x, rfl⟩)
  have hlock := hI.locked hs hp
  have key : (oj = .getSt ∨ ∃ s, oj = .putSt s) → False := by
    intro ho
    obtain ⟨t, ht⟩ := getElem?_some_of_length hl.1 hj
    have ha := hI.alone hs ht (Ne.symm hij) hp
    have a := (hl.2 j _ t hj ht).1.1
    rcases ho with rfl | ⟨x, rfl⟩
    · have a : t.ph = .held := a
      rw [ha] at a; cases a
    · rcases a with ⟨-, y, hy⟩ | ⟨hy, -⟩ <;> rw [ha] at hy <;> cases hy
  cases oj <;> simp only [touches] at htj
  case state =>
    cases hxj with
    | state hu => rw [hlock] at hu; cases hu
  case getSt => exact key (.inl rfl)
  case putSt s => exact key (.inr ⟨s, rfl⟩)
  case getBeat => cases hr : w.sh.beatRef <;> simp [hr] at htj
  all_goals simp at htj

/-- Every race is about the data of heartbeats, between the goroutine that sends heartbeats, which writes, and one that handles a Heartbeat
Ack; heartbeats are enabled then. -/
theorem c92_only {E : Env} {w : World} (h : Reachable E w) {c : Cell} {i j : Nat} (hr : Race w c i j) :
    E.hb.enabled = true ∧ CanDo w i .beatLoop (beatWrite c) ∧
      (c = .beatBuf → w.sh.beatRef = .buf) ∧ c ≠ .state ∧
      ∃ raw a, CanDo w j (.packet raw) .getBeat ∧ M3UA.parse raw = .ok (.heartbeatAck a) := by
  have hst : c ≠ .state := by rintro rfl; exact c92_state h i j hr
  obtain ⟨hij, gi, gj, oi, oj, b, hci, hcj, hti, htj⟩ := hr
  have h1 : oi = beatWrite c := by
    cases oi <;> simp only [touches] at hti
    case getBeat => cases hr : w.sh.beatRef <;> simp [hr] at hti
    all_goals simp at hti
    all_goals subst hti
    all_goals first | rfl | exact absurd rfl hst
  have h1' : oi = .rand ∨ oi = .setBeat := by
    cases c <;> simp only [beatWrite] at h1
    · exact absurd rfl hst
    · exact .inr h1
    · exact .inl h1
  obtain ⟨ei, ki, ri, shi, hca, hi, hxi⟩ := hci
  obtain ⟨ej, kj, rj, shj, hcb, hj, hxj⟩ := hcj
  obtain rfl := One.drawer h hi h1'
  have h2 : oj = .getBeat := by
    have hn : ¬ (oj = .rand ∨ oj = .setBeat) := fun ho => hij (One.single h hi hj h1' ho)
    cases oj <;> simp only [touches] at htj <;> simp at htj
    all_goals first | rfl | exact absurd htj.1 hst | exact absurd (.inl rfl) hn | exact absurd (.inr rfl) hn
  subst h2
  obtain ⟨raw, a, rfl, ha⟩ := One.looker h hj
  refine ⟨(c73_rounds h hi rfl).1, ?_, ?_, hst, raw, a, ⟨ej, kj, rj, shj, hcb, hj, hxj⟩, ha⟩
  · subst h1; exact ⟨ei, ki, ri, shi, hca, hi, hxi⟩
  · rintro rfl
    simp only [touches] at htj
    cases hb : w.sh.beatRef with
    | own x => rw [hb] at htj; simp at htj
    | buf => rfl

/-- Without heartbeats there are no races. -/
theorem c92_none {E : Env} {w : World} (h : Reachable E w) (he : E.hb.enabled = false) (c : Cell) (i j : Nat) : ¬ Race w c i j := by
  intro hr
  rw [(c92_only h hr).1] at he
  cases he

/-- The hypothesis is about the configuration. -/
example : E₀.hb.enabled = false := rfl

/-- The operation that a goroutine is about to perform. -/
def Raced.next (w : World) (i : Nat) : Option (Gor × Op) := match w.threads[i]? with
  | some ⟨g, _, .op o _⟩ => some (g, o)
  | _ => none

theorem Raced.can {w : World} {i : Nat} {g : Gor} {o : Op} (h : Raced.next w i = some (g, o)) (hc : w.sh.crashed = false)
    (r : Resp o) {sh' : Shared} (hx : Exec w.sh o r sh') : CanDo w i g o := by
  simp only [Raced.next] at h
  split at h
  · rename_i g' e o' k ht
    cases h
    exact ⟨e, k, r, sh', hc, ht, hx⟩
  · cases h

/-- The peer answers a heartbeat before `heartbeat` has stored its data. -/
def Raced.store (m : Mode) : List Choice :=
  openingBeatOf m ++ go 3 1 ++ [.loop 3, .run 3 (.rand sevens)] ++ go 3 2 ++ [.deliver (message 1 3 6 [tlv 9 sevens])] ++ go 2 2
    ++ [.loop 2] ++ go 5 2

/-- The peer answers a heartbeat twice, and the second answer is looked at when the next heartbeat is due. -/
def Raced.draw (m : Mode) : List Choice :=
  openingBeatOf m ++ go 3 1 ++ beat sevens ++ [.deliver (message 1 3 6 [tlv 9 sevens])] ++ go 2 2 ++ [.loop 2] ++ go 5 3 ++ [.sync 5 3]
    ++ go 5 1 ++ [.sync 5 2, .deliver (message 1 3 6 [tlv 9 sevens])] ++ go 2 6 ++ [.loop 2] ++ go 6 2 ++ [.run 3 .timer, .loop 3]

/-- Two calls of `WriteToStream` at the same time. -/
def Raced.writes (m : Mode) (b : Bytes) (s : UInt16) : List Choice :=
  opening m ++ [.call (.writeToStream b s), .call (.writeToStream b s)] ++ go 5 1 ++ go 6 1

/-- Both races occur, in both modes and with every configuration in which heartbeats are enabled. -/
theorem c92_occurs (E : Env) (he : E.hb.enabled = true) :
    (∃ w, Alone E w ∧ Race w .beatRef 3 5) ∧ (∃ w, Alone E w ∧ Race w .beatBuf 3 6) := by
  have h1 : (play (body' E) (M3.Conn.init E) (Raced.store E.mode)).map
      (fun w => (w.sh.crashed, Raced.next w 3, Raced.next w 5)) =
        some (false, some (.beatLoop, .setBeat), some (.packet (message 1 3 6 [tlv 9 sevens]), .getBeat)) := by
    obtain ⟨mode, cfg, ⟨en, a, b, c⟩, ms⟩ := E
    simp only at he
    subst he
    cases mode <;> kernel_rfl
  have h2 : (play (body' E) (M3.Conn.init E) (Raced.draw E.mode)).map
      (fun w => (w.sh.crashed, w.sh.beatRef, Raced.next w 3, Raced.next w 6)) =
        some (false, .buf, some (.beatLoop, .rand), some (.packet (message 1 3 6 [tlv 9 sevens]), .getBeat)) := by
    obtain ⟨mode, cfg, ⟨en, a, b, c⟩, ms⟩ := E
    simp only at he
    subst he
    cases mode <;> kernel_rfl
  obtain ⟨w, hw, e⟩ := reach_alone h1 (by cases E.mode <;> rfl)
  obtain ⟨v, hv, f⟩ := reach_alone h2 (by cases E.mode <;> rfl)
  simp only [Prod.mk.injEq] at e f
  refine ⟨⟨w, hw, by decide, _, _, _, _, false, Raced.can e.2.1 e.1 () .setBeat, Raced.can e.2.2 e.1 _ .getBeat, ?_, ?_⟩,
    v, hv, by decide, _, _, _, _, false, Raced.can f.2.2.1 f.1 none .randFail, Raced.can f.2.2.2 f.1 _ .getBeat, ?_, ?_⟩
  · simp [touches]
  · simp [touches]
  · simp [touches]
  · simp [touches, f.2.1]

/-- `Builds` as a computation. -/
def Raced.built (w : World) (i : Nat) : Bool := match w.threads[i]? with
  | some ⟨.api (.writeToStream _ _), [⟨.state, .active⟩], _⟩ => true
  | _ => false

theorem Raced.built_ok {w : World} {i : Nat} (h : Raced.built w i = true) : Builds w i := by
  simp only [Raced.built] at h
  split at h
  · rename_i b s k ht
    exact ⟨b, s, [], k, ht⟩
  · cases h

/-- Whatever the configuration and the payload: two users who call `WriteToStream` (or `Write`, which calls it) at the same time both write to
the parameters of the configuration with nothing synchronised in between. A third variable that such calls share is the state: `c92_state`. -/
theorem c92_config (E : Env) (b : Bytes) (s : UInt16) : ∃ w, Alone E w ∧ Builds w 5 ∧ Builds w 6 := by
  have h : (play (body' E) (M3.Conn.init E) (Raced.writes E.mode b s)).map (fun w => (Raced.built w 5, Raced.built w 6)) =
      some (true, true) := by
    obtain ⟨mode, cfg, hb, ms⟩ := E
    cases mode <;> kernel_rfl
  obtain ⟨w, hw, e⟩ := reach_alone h (by cases E.mode <;> rfl)
  simp only [Prod.mk.injEq] at e
  exact ⟨w, hw, Raced.built_ok e.1, Raced.built_ok e.2⟩

/-- A case of `c92_only` with both of its conclusions: the pointer already leads to the buffer that is overwritten. -/
example : ∃ w, Reachable E₁ w ∧ Race w .beatBuf 3 6 ∧ w.sh.beatRef = .buf :=
  let ⟨w, hw, hr⟩ := (c92_occurs E₁ rfl).2
  ⟨w, hw.reachable, hr, (c92_only hw.reachable hr).2.2.1 rfl⟩

/-- A case of `c92_state`: the monitor is about to set the state, a user asks for it, and is not allowed to read it now. -/
example : ∃ w, Reachable E₁ w ∧ Raced.next w 2 = some (.monitorLoop, .putSt .active) ∧ Raced.next w 5 = some (.api .state, .state) ∧
    ¬ CanDo w 5 (.api .state) .state := by
  obtain ⟨w, hw, h⟩ := reach_of (E := E₁) (cs := opening .client ++ [.call .state, .deliver (message 1 1 1 [tlv 0x210 [0, 0, 0, 1, 0, 0, 0, 2, 3, 4, 5, 6, 9]])] ++ go 2 2
    ++ [.loop 2] ++ go 6 3 ++ [.sync 6 2] ++ go 2 2)
    (f := fun w => (Raced.next w 2, Raced.next w 5, w.sh.locked)) (v := (some (.monitorLoop, .putSt .active), some (.api .state, .state), true))
    (by kernel_rfl)
  simp only [Prod.mk.injEq] at h
  refine ⟨w, hw, h.1, h.2.1, ?_⟩
  rintro ⟨e, k, r, sh', -, -, hx⟩
  cases hx with
  | state hu => rw [h.2.2] at hu; cases hu

end M3.Conn
