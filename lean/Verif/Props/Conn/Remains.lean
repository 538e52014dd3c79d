import Verif.Lemmas.Conn.Down
import Verif.Props.Conn.Halt
import Verif.Props.Conn.Lost
import Verif.Props.Conn.Deaf
import Verif.Props.Conn.Compared

/- What remains of a closed connection: C90. -/

set_option autoImplicit false
set_option linter.unusedSimpArgs false

namespace M3.Spec

open M3.Conn

/-- What a goroutine of a closed connection can be waiting for. -/
def Left (w : World) : Gor → Op → Prop
  /- `Dial` or `Accept`: for the connection to be established, until the time is over -/
  | .main, .estSelect => w.sh.estClosed = false
  /- to report the first state -/
  | .start, .sendState _ => True
  /- heartbeats: for the connection to become active; for an acknowledgement; for the next time; to report an error -/
  | .heartbeat, .waitLeave => w.sh.cond ≠ .woken
  | .beatLoop, .ackSelect => w.sh.ctxDone = false ∧ w.sh.ackClosed = false
  | .beatLoop, .sleepSelect => w.sh.ctxDone = false
  | .beatLoop, .sendErr _ => True
  /- a message: to report a state or an error, to hand over a heartbeat acknowledgement -/
  | .packet _, .sendState _ | .packet _, .sendErr _ => True
  | .packet _, .sendAck => w.sh.ackClosed = false
  /- DATA: to report an error; for room in the queue -/
  | .data _, .sendErr _ => True
  | .data _, .sendData _ => w.sh.dataClosed = false ∧ w.sh.ctxDone = false ∧ dataCap ≤ w.sh.dataQ.length
  /- `Read` or `ReadPD`: for data -/
  | .api (.read _), .recvData | .api .readPD, .recvData => w.sh.dataQ = [] ∧ w.sh.dataClosed = false
  | _, _ => False

end M3.Spec

namespace M3.Conn

open Spec

/-- C90: when the monitor has returned, the state is AspDown and the association closed, for ever. -/
theorem c90_down {E : Env} {w : World} (h : Reachable E w) (he : ended w) : w.sh.st = .down ∧ w.sh.sctpClosed = true := by
  obtain ⟨g, e, ht⟩ := he
  exact ⟨Down.down h ht, Halt.over h ht⟩

/-- C90: everything that can remain of a closed connection that does nothing by itself any more. -/
theorem c90_left {E : Env} {w : World} (h : Reachable E w) (hq : Halted E w) (ho : Over w) {i : Nat} {g : Gor} {e : List Ev}
    {p : Prog (Option Gor)} (ht : w.threads[i]? = some ⟨g, e, p⟩) : p = .ret none ∨ ∃ o k, p = .op o k ∧ Left w g o := by
  cases p with
  | ret r =>
    cases r with
    | none => exact .inl rfl
    | some g' => exact (Halt.no_loop hq ht).elim
  | op o k =>
    refine .inr ⟨o, k, rfl, ?_⟩
    have hwt := Halt.waits hq ht
    have hr := (Role.pending h ht).2
    have hl := ho.lock
    have hn : w.sh.locked ≠ true := by rw [hl]; simp
    have hs := ho.sctp
    obtain ⟨g2, e2, h2⟩ := ho.ended
    have hmon : Role.cl g ≠ .monitor := by
      intro hc
      have := (Role.pending h ht).1.2.2.mp hc
      subst this
      rw [h2] at ht; cases ht
    obtain ⟨ss, hlk, hi⟩ := Halt.Lk.reach h
    obtain ⟨s, hs'⟩ := getElem?_some_of_length hlk.1 ht
    have hok : Halt.Lk.ok s o := (wp_op.mp (hlk.2 i _ s ht hs')).1
    cases o <;> first
      | (cases hwt; done)
      | (exact (hn hwt).elim)
      | (cases hwt; cases hok.2; done)
      | (cases g <;> first
          | (simp [Role.role, Role.cl] at hr; done)
          | (exact (hmon rfl).elim)
          | trivial
          | (exact hwt)
          | (exact hwt.1)
          | (exact ⟨hwt.1, hwt.2.1⟩)
          | (have := hwt.2; rw [hs] at this; cases this; done)
          | (rename_i c; cases c <;> first | (simp [Role.role] at hr; done) | exact hwt))

namespace Left

/-- The handler of a message starts the handler of DATA as its second operation; before that it only looks at the context. -/
theorem packet_code (E : Env) (raw : Bytes) : WP (Hist fun s o => (s = [] → o = .ctxDone) ∧ (∀ g, o = .spawn g → s.length = 1))
    (.packet raw) (fun _ _ => True) [] (body E (.packet raw)) := by
  rw [body, packet_eq]
  cases hp : M3UA.parse raw with
  | ok m => cases m <;> wp_code [Hist.ok_eq, Hist.may_eq, Hist.next_eq] <;> simp
  | _ => wp_code []

/-- `Close` closes the channels only after it has seen a state other than AspDown. -/
theorem close_code (E : Env) : WP (Hist fun s o => o = .closeData → ∃ st, st ≠ St.down ∧ (⟨.getSt, st⟩ : Ev) ∈ s)
    (.api .close) (fun _ _ => True) [] (body E (.api .close)) := by
  wp_code [Hist.ok_eq, Hist.may_eq, Hist.next_eq] <;> simp_all

/-- What a goroutine of code without loop is about to do, by what it did. -/
theorem now {E : Env} {w : World} (h : Reachable E w) {i : Nat} {g : Gor} {e : List Ev} {o : Op} {k : Resp o → Prog (Option Gor)}
    (ht : w.threads[i]? = some ⟨g, e, .op o k⟩) (ho : g.once = true) {P : List Ev → Op → Prop} {Q : List Ev → Option Gor → Prop}
    (hw : WP (Hist P) g Q [] (body E g)) : P e o := by
  obtain ⟨hp, hof⟩ := Follows.once h ht rfl ho
  have hr := Hist.real_of h i
  rw [hof, List.map_map, show Rec.ev ∘ (fun e => (⟨i, g, e⟩ : Rec)) = id from rfl, List.map_id] at hr
  have := Hist.now hw hr hp
  exact (wp_op.mp this).1

/-- A goroutine that will neither hand over data nor close the channels. -/
def Tame : Thread → Prop
  | ⟨.api .close, e, p⟩ => p = .ret none ∨ ∀ st, (⟨.getSt, st⟩ : Ev) ∈ e → st = .down
  | ⟨.packet _, e, p⟩ => p = .ret none ∨ (1 ≤ e.length ∧ ∀ g k, p = .op (.spawn g) k → 2 ≤ e.length)
  | ⟨.data _, _, p⟩ => p = .ret none ∨ ∃ c k, p = .op (.sendErr c) k
  | _ => True

structure J (w : World) : Prop where
  ended : ended w
  queue : w.sh.dataQ = []
  opened : w.sh.dataClosed = false
  tame : ∀ (j : Nat) (t : Thread), w.threads[j]? = some t → Tame t

theorem tame_of {E : Env} {w : World} (h : Reachable E w) (hq : Halted E w) (ho : Over w) (hd : w.sh.dataQ = []) {j : Nat} {t : Thread}
    (ht : w.threads[j]? = some t) : Tame t := by
  obtain ⟨g, e, p⟩ := t
  have hl := c90_left h hq ho ht
  cases g with
  | api c =>
    cases c <;> try trivial
    rcases hl with rfl | ⟨o, k, rfl, hl⟩
    · exact .inl rfl
    · cases o <;> cases hl
  | packet raw =>
    rcases hl with rfl | ⟨o, k, rfl, hl⟩
    · exact .inl rfl
    · refine .inr ⟨?_, ?_⟩
      · cases e with
        | nil =>
          have := (now h ht rfl (packet_code E raw)).1 rfl
          subst this
          cases hl
        | cons => simp
      · intro g k' he
        cases he
        cases hl
  | data m =>
    rcases hl with rfl | ⟨o, k, rfl, hl⟩
    · exact .inl rfl
    · cases o <;> first
        | (cases hl; done)
        | exact .inr ⟨_, _, rfl⟩
        | (have := hl.2.2; rw [hd] at this; simp [dataCap] at this; done)
  | _ => trivial

theorem set_cases {α : Type} {l : List α} {i j : Nat} {a t : α} (h : (l.set i a)[j]? = some t) : t = a ∨ l[j]? = some t := by
  rw [List.getElem?_set] at h
  split at h
  · split at h
    · exact .inl (Option.some.inj h).symm
    · cases h
  · exact .inr h

/-- What an operation leaves of it. -/
theorem Tame.next {g : Gor} {e : List Ev} {o : Op} {k : Resp o → Prog (Option Gor)} (r : Resp o) (ht : Tame ⟨g, e, .op o k⟩)
    (hd : ∀ m, g = .data m → ∀ c, o ≠ .sendErr c) (hs : ∀ st, (⟨o, r⟩ : Ev) = ⟨.getSt, st⟩ → st = .down) :
    Tame ⟨g, e ++ [⟨o, r⟩], k r⟩ := by
  cases g with
  | api c =>
    cases c <;> try trivial
    rcases ht with ht | ht
    · cases ht
    · refine .inr fun st hm => ?_
      rcases List.mem_append.mp hm with hm | hm
      · exact ht st hm
      · exact hs st (List.mem_singleton.mp hm).symm
  | packet raw =>
    rcases ht with ht | ⟨ht, -⟩
    · cases ht
    · exact .inr ⟨by simp, fun _ _ _ => by simpa using ht⟩
  | data m =>
    rcases ht with ht | ⟨c, k', ht⟩
    · cases ht
    · cases ht
      exact (hd m rfl c rfl).elim
  | _ => trivial

theorem J.step {E : Env} {w w' : World} (h : Reachable E w) (hj : J w) (hs : Step E w w') {i : Nat} {g : Gor} {e : List Ev}
    {k : Resp .recvData → Prog (Option Gor)} (ht : w.threads[i]? = some ⟨g, e, .op .recvData k⟩) :
    J w' ∧ w'.threads[i]? = some ⟨g, e, .op .recvData k⟩ := by
  have hmon := @ended_mon E w h hj.ended
  have hdown := (c90_down h hj.ended).1
  obtain ⟨g2, e2, h2⟩ := hj.ended
  have hmg : ∀ {j : Nat} {gj : Gor} {ej : List Ev} {o : Op} {kj : Resp o → Prog (Option Gor)},
      w.threads[j]? = some ⟨gj, ej, .op o kj⟩ → Role.cl gj ≠ .monitor := by
    intro j gj ej o kj htj hc
    have := (Role.pending h htj).1.2.2.mp hc
    subst this
    rw [h2] at htj; cases htj
  have hlt : i < w.threads.length := (List.getElem?_eq_some_iff.mp ht).1
  have hlt2 : 2 < w.threads.length := (List.getElem?_eq_some_iff.mp h2).1
  obtain ⟨-, hq, ho, htame⟩ := hj
  cases hs with
  | env _ hx => cases hx <;> exact ⟨⟨⟨g2, e2, h2⟩, hq, ho, htame⟩, ht⟩
  | call c =>
    refine ⟨⟨⟨g2, e2, by simpa only [List.getElem?_append_left hlt2] using h2⟩, hq, ho, ?_⟩,
      by simpa only [List.getElem?_append_left hlt] using ht⟩
    intro j t htj
    rcases Nat.lt_or_ge j w.threads.length with hl | hl
    · rw [List.getElem?_append_left hl] at htj; exact htame j t htj
    · have hm := List.mem_of_getElem? (List.getElem?_append_right hl ▸ htj)
      rw [List.mem_singleton.mp hm]
      cases c <;> first | trivial | exact .inr nofun
  | loop j g' g'' e' _ htj =>
    have hne : j ≠ i := by rintro rfl; rw [ht] at htj; cases htj
    have hne2 : j ≠ 2 := by rintro rfl; rw [h2] at htj; cases htj
    refine ⟨⟨⟨g2, e2, by simpa only [List.getElem?_set_ne hne2] using h2⟩, hq, ho, ?_⟩, by simpa only [List.getElem?_set_ne hne] using ht⟩
    intro l t htl
    rcases set_cases htl with rfl | htl
    · have := loops ((Follows.reach h).2 j _ htj).1
      cases g'' <;> first | trivial | cases this
    · exact htame l t htl
  | crash => exact ⟨⟨⟨g2, e2, h2⟩, hq, ho, htame⟩, ht⟩
  | run j g' e' o k' r _ htj hx =>
    have hne : j ≠ i := by
      rintro rfl
      rw [ht] at htj; cases htj
      cases hx with
      | recvData hd => rw [hq] at hd; cases hd
      | recvDataClosed _ hd => rw [ho] at hd; cases hd
    have hne2 : j ≠ 2 := by rintro rfl; rw [h2] at htj; cases htj
    have hr := (Role.pending h htj).2
    have htm := htame j _ htj
    have hsp : ∀ gs, o ≠ .spawn gs := by
      rintro gs rfl
      have hm := hmg htj
      cases gs <;> simp only [Role.role, decide_eq_true_eq, Bool.false_eq_true] at hr <;>
        first
        | (subst hr; exact hm rfl)
        | skip
      cases g' <;> try cases hr
      rcases htm with htm | ⟨-, htm⟩
      · cases htm
      · have h1 := htm _ _ rfl
        have := (now h htj rfl (packet_code E _)).2 _ rfl
        omega
    have hthreads : ∀ (l : Nat) (t : Thread), (w.threads.set j ⟨g', e' ++ [⟨o, r⟩], k' r⟩ ++ (spawned o).map (Thread.fresh E))[l]? = some t →
        Tame t := by
      have : spawned o = [] := by cases o <;> first | rfl | exact (hsp _ rfl).elim
      rw [this, List.map_nil, List.append_nil]
      intro l t htl
      rcases set_cases htl with rfl | htl
      · refine htm.next r ?_ ?_
        · rintro m rfl c rfl; cases hx
        · intro st he
          cases he
          cases hx
          exact hdown
      · exact htame l t htl
    have hres : ∀ sh', sh'.dataQ = [] → sh'.dataClosed = false →
        J ⟨sh', w.threads.set j ⟨g', e' ++ [⟨o, r⟩], k' r⟩ ++ (spawned o).map (Thread.fresh E), w.trace ++ [⟨j, g', o, r⟩]⟩ ∧
        (w.threads.set j ⟨g', e' ++ [⟨o, r⟩], k' r⟩ ++ (spawned o).map (Thread.fresh E))[i]? = some ⟨g, e, .op .recvData k⟩ := by
      intro sh' h1 h3
      exact ⟨⟨⟨g2, e2, by rw [List.getElem?_append_left (by simpa using hlt2), List.getElem?_set_ne hne2]; exact h2⟩, h1, h3, hthreads⟩,
        by rw [List.getElem?_append_left (by simpa using hlt), List.getElem?_set_ne hne]; exact ht⟩
    refine hres _ ?_ ?_
    · cases hx <;> first
        | exact hq
        | (rename_i hd; rw [hq] at hd; cases hd)
        | skip
      cases g' <;> try cases hr
      rcases htm with htm | ⟨c, k', htm⟩ <;> cases htm
    · cases hx <;> first
        | exact ho
        | skip
      simp only [Role.role, decide_eq_true_eq] at hr
      rcases hr with rfl | rfl
      · exact (hmg htj rfl).elim
      · obtain ⟨st, h1, h3⟩ := now h htj rfl (close_code E) rfl
        rcases htm with htm | htm
        · cases htm
        · exact (h1 (htm st h3)).elim
  | sync j l gj gl ej el oj ol kj kl rj rl _ hjl htj htl hx =>
    have hj2 : j ≠ 2 := by rintro rfl; rw [h2] at htj; cases htj
    have hl2 : l ≠ 2 := by rintro rfl; rw [h2] at htl; cases htl
    have hji : j ≠ i := by rintro rfl; rw [ht] at htj; cases htj; cases hx
    have hli : l ≠ i := by rintro rfl; rw [ht] at htl; cases htl; cases hx
    refine ⟨⟨⟨g2, e2, by simp only [List.getElem?_set_ne hl2, List.getElem?_set_ne hj2]; exact h2⟩, ?_, ?_, ?_⟩,
      by simp only [List.getElem?_set_ne hli, List.getElem?_set_ne hji]; exact ht⟩
    · cases hx <;> exact hq
    · cases hx <;> exact ho
    · intro x t htx
      rcases set_cases htx with rfl | htx
      · refine (htame l _ htl).next rl ?_ ?_
        · rintro m rfl c rfl; cases hx
        · intro st he; cases he; cases hx
      · rcases set_cases htx with rfl | htx
        · refine (htame j _ htj).next rj ?_ ?_
          · rintro m rfl c rfl; cases hx; exact hmon htl
          · intro st he; cases he; cases hx
        · exact htame x t htx

end Left

/-- C90: a call of `Read` or `ReadPD` that waits at a closed connection waits for ever, whatever happens afterwards: further calls of `Close`
do not wake it up, nor does the end of the context. -/
theorem c90_forever {E : Env} {w w' : World} (h : Reachable E w) (hq : Halted E w) (ho : Over w) {i : Nat} {g : Gor} {e : List Ev}
    {k : Resp .recvData → Prog (Option Gor)} (ht : w.threads[i]? = some ⟨g, e, .op .recvData k⟩) (hs : Steps E w w') :
    w'.threads[i]? = some ⟨g, e, .op .recvData k⟩ := by
  have hwt : w.sh.dataQ = [] ∧ w.sh.dataClosed = false := Halt.waits hq ht
  have hj : Left.J w := ⟨ho.ended, hwt.1, hwt.2, fun j t htj => Left.tame_of h hq ho hwt.1 htj⟩
  suffices Left.J w' ∧ w'.threads[i]? = some ⟨g, e, .op .recvData k⟩ from this.2
  induction hs with
  | refl => exact ⟨hj, ht⟩
  | @tail a c hab hs ih => exact ih.1.step (Steps.trans h hab) hs ih.2

/-- C90: if the connection was not AspDown when it was closed, so that the channels were closed, then no call of the user waits. -/
theorem c90_calls {E : Env} {w : World} (h : Reachable E w) (hq : Halted E w) (ho : Over w) (hc : w.sh.dataClosed = true) {i : Nat} {c : Api}
    {e : List Ev} {p : Prog (Option Gor)} (ht : w.threads[i]? = some ⟨.api c, e, p⟩) : p = .ret none := by
  rcases c90_left h hq ho ht with rfl | ⟨o, k, rfl, hl⟩
  · rfl
  · cases c <;> cases o <;> first
      | (cases hl; done)
      | (have := hl.2; rw [hc] at this; cases this)

/-- A case of `c90_calls`: `Read` waits, then `Close` is called; both have returned. -/
example : ∃ w, Reachable E₀ w ∧ Halted E₀ w ∧ Over w ∧ w.sh.dataClosed = true ∧ returns w.trace = [.closed true, .fail .notEstablished] := by
  have h : (play (body' E₀) (init E₀) (opening .client ++ [.call (.read 10)] ++ go 5 1 ++ [.call .close] ++ go 6 9 ++ go 5 2 ++ [.run 2 .fail]
      ++ go 2 5 ++ go 3 1)).map (fun w => (Halt.haltedB w, monEnded w, w.sh.sctpClosed, w.sh.locked, w.sh.dataClosed, returns w.trace)) =
        some (true, true, true, false, true, [.closed true, .fail .notEstablished]) := by kernel_rfl
  obtain ⟨w, hw, he⟩ := reach_of h
  simp only [Prod.mk.injEq] at he
  obtain ⟨h1, h2, h3, h4, h5, h6⟩ := he
  unfold monEnded at h2
  split at h2
  · rename_i g2 e2 ht2
    exact ⟨w, hw, Halt.halted_of h1, ⟨⟨g2, e2, ht2⟩, h3, h4⟩, h5, h6⟩
  · cases h2

/-- The call that a goroutine executes, if it waits for data. -/
def Left.waiting (w : World) (i : Nat) : Option Api := match (w.threads[i]? : Option Thread) with
  | some ⟨.api c, _, .op .recvData _⟩ => some c
  | _ => none

/-- ASP Down Ack without parameters. -/
def downAck : Bytes := [1, 0, 3, 5, 0, 0, 0, 8]

/-- C90: whatever the configuration and the mode, `Close` need not wake up a `Read`: the peer sends an ASP Down Ack while `Read` waits, then the
user calls `Close`, which returns without an error; `Read` waits for ever (`c90_forever`). -/
theorem c90_occurs (E : Env) : ∃ w e k, Reachable E w ∧ Halted E w ∧ Over w ∧ receives w.trace = [ackMsg, downAck] ∧
    calls w = [.read 10, .close] ∧ returns w.trace = [.closed true] ∧ w.threads[5]? = some ⟨.api (.read 10), e, .op .recvData k⟩ := by
  have h : (play (body' E) (init E) (opening E.mode ++ [.call (.read 10)] ++ go 5 1 ++ [.deliver downAck] ++ go 2 2 ++ [.loop 2] ++ go 6 2
      ++ [.sync 6 2] ++ go 2 2 ++ [.loop 2, .sync 6 2] ++ (match E.mode with
        | .client => go 2 6
        | .server => go 2 4) ++ [.call .close] ++ go 7 5 ++ [.run 2 .fail] ++ go 2 5 ++ go 3 1)).map
      (fun w => (Halt.haltedB w, monEnded w, w.sh.sctpClosed, w.sh.locked, receives w.trace, calls w, returns w.trace, Left.waiting w 5)) =
        some (true, true, true, false, [ackMsg, downAck], [.read 10, .close], [.closed true], some (.read 10)) := by
    obtain ⟨mode, cfg, hb, ms⟩ := E
    cases mode <;> kernel_rfl
  obtain ⟨w, hw, he⟩ := reach_of h
  simp only [Prod.mk.injEq] at he
  obtain ⟨h1, h2, h3, h4, h5, h6, h7, h8⟩ := he
  unfold Left.waiting at h8
  unfold monEnded at h2
  split at h8
  · rename_i c e k ht
    cases h8
    split at h2
    · rename_i g2 e2 ht2
      exact ⟨w, e, k, hw, Halt.halted_of h1, ⟨⟨g2, e2, ht2⟩, h3, h4⟩, h5, h6, h7, ht⟩
    · cases h2
  · cases h8

/-- C90: whatever the configuration, if heartbeats are enabled then `Close` can leave their goroutine behind: between two heartbeats it does not
notice that the connection is closed, fails to send the next one, and waits for ever to tell the monitor (`c79_leak`). -/
theorem c90_beat (E : Env) (he : E.hb.enabled = true) : ∃ w, Reachable E w ∧ Halted E w ∧ Over w ∧ w.sh.ctxDone = false ∧
    calls w = [.close] ∧ returns w.trace = [.closed true] ∧ w.reporting 3 .failedToWriteSignal := by
  have h : (play (body' E) (init E) (openingBeatOf E.mode ++ go 3 1 ++ beat sevens ++ [.deliver (message 1 3 6 [tlv 9 sevens])] ++ go 2 2
      ++ [.loop 2] ++ go 5 3 ++ [.sync 5 3] ++ go 5 1 ++ [.sync 5 2] ++ go 2 4 ++ [.call .close] ++ go 6 9 ++ [.run 2 .fail] ++ go 2 5
      ++ [.run 3 .timer, .loop 3, .run 3 (.rand sevens)] ++ go 3 1 ++ [.run 3 .fail])).map
      (fun w => (Halt.haltedB w, monEnded w, w.sh.sctpClosed, w.sh.locked, w.sh.ctxDone, calls w, returns w.trace, w.report3)) =
        some (true, true, true, false, false, [.close], [.closed true], some .failedToWriteSignal) := by
    obtain ⟨mode, cfg, ⟨en, a, b, c⟩, ms⟩ := E
    simp only at he
    subst he
    cases mode <;> kernel_rfl
  obtain ⟨w, hw, he⟩ := reach_of h
  simp only [Prod.mk.injEq] at he
  obtain ⟨h1, h2, h3, h4, h5, h6, h7, h8⟩ := he
  unfold monEnded at h2
  split at h2
  · rename_i g2 e2 ht2
    exact ⟨w, hw, Halt.halted_of h1, ⟨⟨g2, e2, ht2⟩, h3, h4⟩, h5, h6, h7, World.report3_reporting h8⟩
  · cases h2

/-- A case of `c90_down`, `c90_left` and `c90_forever`: after `c90_occurs`, the user calls `Close` again and cancels the context. -/
example : ∃ w w' e k, Reachable E₀ w ∧ Halted E₀ w ∧ Over w ∧ Left w (.api (.read 10)) .recvData ∧ Steps E₀ w w' ∧ w'.sh.ctxDone = true ∧
    w'.threads[5]? = some ⟨.api (.read 10), e, .op .recvData k⟩ := by
  obtain ⟨w, e, k, hw, hq, ho, -, -, -, ht⟩ := c90_occurs E₀
  have hs : Steps E₀ w { w with sh := { w.sh with ctxDone := true } } := .tail (.refl w) (.env hq.alive .cancel)
  exact ⟨w, _, e, k, hw, hq, ho, Halt.waits hq ht, hs, rfl, c90_forever hw hq ho ht hs⟩

end M3.Conn
