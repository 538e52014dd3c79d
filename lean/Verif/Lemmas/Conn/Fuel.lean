import Verif.Lemmas.Conn.Code
import Verif.Lemmas.Conn.Count
import Verif.Spec.Work
import Verif.Props.Conn.EndToEnd

/- How much the goroutines of a connection can still do. Every operation is paid for: a goroutine is born with enough for all it
may do; who reports a state or an error to the monitor pays for the monitor's next round; a datagram brings what its handling
costs, and so does a heartbeat interval that has elapsed. -/

set_option autoImplicit false

namespace M3.Conn.Fuel

open Spec

/-- What operations are worth and who pays for them. -/
structure Tariff where
  /-- What is counted. -/
  weight : Op → Nat
  /-- What a goroutine is born with. -/
  budget : Gor → Nat
  /-- What a state reported to the monitor brings it. -/
  state : St → Nat
  /-- What an error reported to the monitor brings it. -/
  err : CErr → Nat
  /-- What a datagram brings. -/
  datagram : Nat
  /-- What an elapsed heartbeat interval brings. -/
  beat : Nat

variable (T : Tariff)

/-- What an operation costs. -/
def Tariff.cost : Op → Nat
  | .sendState s => T.weight (.sendState s) + T.state s
  | .sendErr e => T.weight (.sendErr e) + T.err e
  | .spawn g => T.weight (.spawn g) + T.budget g
  | o => T.weight o

/-- What it brings. -/
def Tariff.gain : (o : Op) → Resp o → Nat
  | .monSelect, .state s => T.state s
  | .monSelect, .err e => T.err e
  | .read _, some _ => T.datagram
  | .sleepSelect, false => T.beat
  | _, _ => 0

def Tariff.D : Disc Nat where
  start g s := T.budget g ≤ s
  born := T.budget
  ok _ s o := T.cost o ≤ s
  may _ _ _ _ := True
  next _ s o r := s - T.cost o + T.gain o r

theorem D_ok {g s o} : T.D.ok g s o = (T.cost o ≤ s) := rfl
theorem D_may {g s o r} : T.D.may g s o r = True := rfl
theorem D_next {g s o r} : T.D.next g s o r = s - T.cost o + T.gain o r := rfl
theorem D_post_none {s} : T.D.post s none = True := rfl
theorem D_post_some {s g} : T.D.post s (some g) = (T.budget g ≤ s) := rfl

variable {T}

/-- More does no harm. -/
theorem wp_mono_fuel {g : Gor} {p : Prog (Option Gor)} {s s' : Nat} (h : s ≤ s') (hp : WP T.D g T.D.post s p) :
    WP T.D g T.D.post s' p := by
  induction p generalizing s s' with
  | ret r =>
    cases r with
    | none => trivial
    | some g' => exact Nat.le_trans hp h
  | op o k ih =>
    refine ⟨Nat.le_trans hp.1 h, fun r hr => ih r ?_ (hp.2 r trivial)⟩
    simp only [D_next]
    omega

/-- What every goroutine is born with suffices for what it does. -/
def Tariff.Suffices (T : Tariff) (E : Env) : Prop := ∀ g, WP T.D g T.D.post (T.budget g) (body E g)

theorem Tariff.Suffices.good {E : Env} (h : T.Suffices E) : T.D.Good E where
  main := Nat.le_refl _
  init := Nat.le_refl _
  monitor := Nat.le_refl _
  api _ := Nat.le_refl _
  spawn _ _ _ _ := Nat.le_refl _
  body g _ hs := wp_mono_fuel hs (h g)

/-- What the goroutines have altogether. -/
abbrev all (ss : List Nat) : Nat := tot (fun n => n) ss

/-- What an event brings from outside. -/
def Tariff.paid (T : Tariff) (e : Ev) : Nat := T.datagram * (received? e).toList.length + T.beat * if elapsed e then 1 else 0

theorem exec_paid {sh sh' : Shared} {o : Op} {r : Resp o} (h : Exec sh o r sh') :
    T.gain o r + all ((spawned o).map T.budget) + T.weight o ≤ T.cost o + T.paid ⟨o, r⟩ := by
  cases h <;> simp [Tariff.gain, Tariff.cost, spawned, Tariff.paid, received?, elapsed, all, tot] <;> omega

theorem sync_paid {sh sh' : Shared} {o₁ o₂ : Op} {r₁ : Resp o₁} {r₂ : Resp o₂} (h : Sync sh o₁ r₁ o₂ r₂ sh') :
    T.gain o₁ r₁ + T.gain o₂ r₂ + (T.weight o₁ + T.weight o₂) ≤ T.cost o₁ + T.cost o₂ := by
  cases h <;> simp [Tariff.gain, Tariff.cost] <;> omega

/-- What has been done. -/
def Tariff.done (T : Tariff) (l : List Rec) : Nat := tot (fun x => T.weight x.ev.op) l

/-- What has been brought from outside. -/
def Tariff.income (T : Tariff) (w : World) : Nat :=
  tot T.budget ((w.threads.map Thread.gor).filter ofUser) + T.datagram * (receives w.trace).length + T.beat * beats w.trace

theorem trace_paid (l l' : List Rec) : T.datagram * (receives (l ++ l')).length + T.beat * beats (l ++ l') =
    T.datagram * (receives l).length + T.beat * beats l + tot (fun x => T.paid x.ev) l' := by
  have h : ∀ l' : List Rec, T.datagram * (receives l').length + T.beat * beats l' = tot (fun x => T.paid x.ev) l' := by
    intro l'
    induction l' with
    | nil => rfl
    | cons x l' ih =>
      rw [tot_cons, ← ih]
      simp only [receives, beats, Tariff.paid, List.filterMap_cons, List.countP_cons]
      cases received? x.ev <;> simp [Nat.mul_add] <;> omega
  have ha : (receives (l ++ l')).length = (receives l).length + (receives l').length := by simp [receives]
  have hb : beats (l ++ l') = beats l + beats l' := by simp [beats]
  rw [ha, hb, ← h l', Nat.mul_add, Nat.mul_add]
  omega

theorem gor_set {ts : List Thread} {i : Nat} {t t' : Thread} (h : ts[i]? = some t) (hg : t'.gor = t.gor) :
    (ts.set i t').map Thread.gor = ts.map Thread.gor := by
  rw [List.map_set, hg]
  obtain ⟨hi, hx⟩ := List.getElem?_eq_some_iff.mp h
  rw [← hx]
  rw [show ts[i].gor = (ts.map Thread.gor)[i]'(by simpa using hi) by simp]
  exact List.set_getElem_self _

/-- What the calls of the user among the goroutines bring. -/
abbrev Tariff.callsIn (T : Tariff) (ts : List Thread) : Nat := tot T.budget ((ts.map Thread.gor).filter ofUser)

theorem income_append (sh : Shared) (ts : List Thread) (tr l : List Rec) :
    T.income ⟨sh, ts, tr ++ l⟩ =
      T.callsIn ts + (T.datagram * (receives tr).length + T.beat * beats tr) + tot (fun x => T.paid x.ev) l := by
  have := trace_paid (T := T) tr l
  simp only [Tariff.income, Tariff.callsIn]
  omega

theorem income_eq (sh : Shared) (ts : List Thread) (tr : List Rec) :
    T.income ⟨sh, ts, tr⟩ = T.callsIn ts + (T.datagram * (receives tr).length + T.beat * beats tr) := by
  simp only [Tariff.income, Tariff.callsIn]
  omega

theorem done_append (l l' : List Rec) : T.done (l ++ l') = T.done l + T.done l' := tot_append _ _ _

/-- Code that loops is not entered from a call of the user. -/
theorem loop_user {E : Env} {g g' : Gor} {h : List Ev} (hp : Path (body E g) h (.ret (some g'))) :
    ofUser g = false ∧ ofUser g' = false := by
  constructor
  · cases g with
    | api c => exact absurd hp api_last
    | _ => rfl
  · have := loops hp
    cases g' <;> first | rfl | cases this

theorem set_self {α : Type} {l : List α} {i : Nat} {a : α} (h : l[i]? = some a) : l.set i a = l := by
  obtain ⟨h1, h2⟩ := List.getElem?_eq_some_iff.mp h
  rw [← h2]
  exact List.set_getElem_self h1

theorem calls_loop {ts : List Thread} {i : Nat} {t t' : Thread} (h : ts[i]? = some t) (hg : ofUser t.gor = false)
    (hg' : ofUser t'.gor = false) : T.callsIn (ts.set i t') = T.callsIn ts := by
  have hz : ∀ ts : List Thread, T.callsIn ts = tot (fun t => if ofUser t.gor then T.budget t.gor else 0) ts := by
    intro ts
    induction ts with
    | nil => rfl
    | cons t ts ih =>
      rw [tot_cons, ← ih]
      simp only [Tariff.callsIn, List.map_cons, List.filter_cons]
      cases ofUser t.gor
      · simp
      · simp [tot_cons]
  rw [hz, hz]
  have := tot_set (fun t : Thread => if ofUser t.gor then T.budget t.gor else 0) t' h
  simpa [hg, hg'] using this

/-- Every operation is paid for. -/
theorem step {E : Env} (hg : T.Suffices E) {w w' : World} (hr : Reachable E w) (hs : Step E w w') {ss : List Nat} (hl : T.D.Linked w ss) :
    ∃ ss', T.D.Linked w' ss' ∧ all ss' + T.done w'.trace + T.income w ≤ all ss + T.done w.trace + T.income w' := by
  have hf := (Follows.reach hr).2
  obtain ⟨sh, ts, tr⟩ := w
  cases hs with
  | env hc he => exact ⟨ss, Disc.linked_sh hl _ _, Nat.le_refl _⟩
  | call c hc hh =>
    refine ⟨ss ++ [Gor.api c].map T.D.born, ?_, ?_⟩
    · simpa using Disc.linked_append hg.good hl [.api c] (by simp [Tariff.D]) sh tr
    · have hu : [Gor.api c].filter ofUser = [.api c] := rfl
      simp [Tariff.income, all, tot, Tariff.D, Thread.fresh, hu]
      omega
  | run i g h o k r hc ht hx =>
    obtain ⟨s, hsi⟩ := getElem?_some_of_length hl.1 ht
    have hw := hl.2 i _ s ht hsi
    refine ⟨_, Disc.linked_append hg.good (Disc.linked_set hl i ⟨g, h ++ [⟨o, r⟩], k r⟩ _ (hw.2 r trivial) sh tr) _
      (spawned_start hg.good hw.1) _ _, ?_⟩
    have h1 := tot_set (fun n : Nat => n) (T.D.next g s o r) hsi
    have h2 := exec_paid (T := T) hx
    have h3 : T.cost o ≤ s := hw.1
    have h5 : tot (fun x => T.paid x.ev) [(⟨i, g, o, r⟩ : Rec)] = T.paid ⟨o, r⟩ := by simp [tot]
    have h6 : T.callsIn (ts.set i ⟨g, h ++ [⟨o, r⟩], k r⟩ ++ (spawned o).map (Thread.fresh E)) =
        T.callsIn ts + T.callsIn ((spawned o).map (Thread.fresh E)) := by
      simp only [Tariff.callsIn, List.map_append, List.filter_append, tot_append]
      have := gor_set (ts := ts) (t := ⟨g, h, .op o k⟩) (t' := ⟨g, h ++ [⟨o, r⟩], k r⟩) ht rfl
      rw [this]
    have h7 : all (ss.set i (T.D.next g s o r) ++ (spawned o).map T.D.born) =
        all (ss.set i (T.D.next g s o r)) + all ((spawned o).map T.budget) := tot_append _ _ _
    have h8 : T.D.next g s o r = s - T.cost o + T.gain o r := rfl
    rw [income_append, income_eq, h5, h6, h7, done_append]
    have h9 : T.done [(⟨i, g, o, r⟩ : Rec)] = T.weight o := by simp [Tariff.done, tot]
    simp only [all] at h2 ⊢
    omega
  | sync i j gi gj hi hj oi oj ki kj ri rj hc hij hti htj hx =>
    obtain ⟨si, hsi⟩ := getElem?_some_of_length hl.1 hti
    obtain ⟨sj, hsj⟩ := getElem?_some_of_length hl.1 htj
    have hwi := hl.2 i _ si hti hsi
    have hwj := hl.2 j _ sj htj hsj
    refine ⟨_, Disc.linked_set (Disc.linked_set hl i ⟨gi, hi ++ [⟨oi, ri⟩], ki ri⟩ _ (hwi.2 ri trivial) sh tr) j
      ⟨gj, hj ++ [⟨oj, rj⟩], kj rj⟩ _ (hwj.2 rj trivial) _ _, ?_⟩
    have h1 := tot_set (fun n : Nat => n) (T.D.next gi si oi ri) hsi
    have hsj' : (ss.set i (T.D.next gi si oi ri))[j]? = some sj := by rw [List.getElem?_set_ne hij]; exact hsj
    have h2 := tot_set (fun n : Nat => n) (T.D.next gj sj oj rj) hsj'
    have h3 : T.cost oi ≤ si := hwi.1
    have h4 : T.cost oj ≤ sj := hwj.1
    have h5 := sync_paid (T := T) hx
    have h6 : T.D.next gi si oi ri = si - T.cost oi + T.gain oi ri := rfl
    have h7 : T.D.next gj sj oj rj = sj - T.cost oj + T.gain oj rj := rfl
    have h8 : T.callsIn ((ts.set i ⟨gi, hi ++ [⟨oi, ri⟩], ki ri⟩).set j ⟨gj, hj ++ [⟨oj, rj⟩], kj rj⟩) = T.callsIn ts := by
      simp only [Tariff.callsIn]
      have ha := gor_set (ts := ts) (t := ⟨gi, hi, .op oi ki⟩) (t' := ⟨gi, hi ++ [⟨oi, ri⟩], ki ri⟩) hti rfl
      have htj' : (ts.set i ⟨gi, hi ++ [⟨oi, ri⟩], ki ri⟩)[j]? = some ⟨gj, hj, .op oj kj⟩ := by
        rw [List.getElem?_set_ne hij]
        exact htj
      have hb := gor_set (t' := ⟨gj, hj ++ [⟨oj, rj⟩], kj rj⟩) htj' rfl
      rw [hb, ha]
    rw [income_append, income_eq, h8, done_append]
    have h9 : T.done [(⟨i, gi, oi, ri⟩ : Rec), ⟨j, gj, oj, rj⟩] = T.weight oi + T.weight oj := by simp [Tariff.done, tot]
    simp only [all]
    omega
  | loop i g g' h hc ht =>
    obtain ⟨s, hsi⟩ := getElem?_some_of_length hl.1 ht
    have hw := hl.2 i _ s ht hsi
    have hu := loop_user (hf i _ ht).1
    refine ⟨ss, ?_, ?_⟩
    · have := Disc.linked_set hl i (Thread.fresh E g') s (hg.good.body g' s hw) sh tr
      rwa [set_self hsi] at this
    · rw [income_eq, income_eq, calls_loop (t := ⟨g, h, .ret (some g')⟩) ht hu.1 hu.2]
      exact Nat.le_refl _
  | crash i g h o k hc ht hx => exact ⟨ss, Disc.linked_sh hl _ _, Nat.le_refl _⟩

/-- What the connection starts with. -/
def Tariff.start (T : Tariff) : Nat := T.budget .main + T.budget .start + T.budget .monitor

/-- What was done is no more than what was paid for. -/
theorem bound {E : Env} (hg : T.Suffices E) {w : World} (hr : Reachable E w) : T.done w.trace ≤ T.start + T.income w := by
  have : ∃ ss, T.D.Linked w ss ∧ all ss + T.done w.trace ≤ T.start + T.income w := by
    unfold Reachable at hr
    generalize hi : init E = i at hr
    induction hr with
    | refl =>
      subst hi
      refine ⟨_, Disc.linked_init hg.good, ?_⟩
      have h1 : T.done (init E).trace = 0 := rfl
      have h2 : all [T.D.born .main, T.D.born .start, T.D.born .monitor] = T.start := by
        simp [all, tot, Tariff.start, Tariff.D]
        omega
      omega
    | tail hp hs ih =>
      subst hi
      obtain ⟨ss, hl, hb⟩ := ih
      obtain ⟨ss', hl', hb'⟩ := step hg hp hs hl
      exact ⟨ss', hl', by omega⟩
  obtain ⟨ss, -, h⟩ := this
  omega

/-! ### Counting operations, datagrams sent and goroutines -/

/-- Every operation counts. -/
def ops : Tariff where
  weight _ := 1
  budget
    | .main => 3
    | .start => 9
    | .monitor => 27
    | .monitorLoop => 10
    | .heartbeat => 16
    | .beatLoop => 14
    | .packet _ => 23
    | .data _ => 10
    | .api _ => 9
  state _ := 8
  err _ := 8
  datagram := 24
  beat := 6

/-- Only datagrams handed to SCTP count. -/
def writes (E : Env) : Tariff where
  weight
    | .write _ _ => 1
    | _ => 0
  budget
    | .start => if E.mode = .client then 1 else 0
    | .monitor | .heartbeat => if E.hb.enabled then 1 else 0
    | .beatLoop => 1
    | .packet _ => if E.mode = .client then 2 else 1
    | .data _ => 1
    | .api (.write _) | .api (.writeToStream _ _) | .api (.writePD _) | .api (.writePDToStream _ _) | .api (.writeSignal _) => 1
    | _ => 0
  state
    | .down | .inactive => if E.mode = .client then 1 else 0
    | _ => 0
  err
    | .invalidVersion _ | .unsupportedClass _ | .unsupportedMessage _ | .unexpectedMessage _ | .invalidStream _
    | .aspIDRequired => 1
    | _ => 0
  datagram := if E.mode = .client then 2 else 1
  beat := 1

/-- Only goroutines count. -/
def gors : Tariff where
  weight
    | .spawn _ => 1
    | _ => 0
  budget
    | .monitor => 1
    | .packet _ => 1
    | _ => 0
  state _ := 0
  err _ := 0
  datagram := 2
  beat := 0

open Lean Parser Tactic in
macro "fuel_code" "[" xs:simpLemma,* "]" : tactic =>
  `(tactic| wp_code [D_ok, D_may, D_next, D_post_none, D_post_some, Tariff.cost, Tariff.gain, ops, writes, gors, forall_st,
    Nat.reduceAdd, Nat.reduceSub, Nat.reduceLeDiff, Nat.le_refl, Nat.add_zero, Nat.zero_add, Nat.sub_zero, Nat.zero_le, and_self,
    ite_self, if_true, if_false, $xs,*])

theorem ops_suffices (E : Env) : ops.Suffices E := by
  intro g
  cases g with
  | packet raw =>
    rw [body, packet_eq]
    cases hp : M3UA.parse raw with
    | ok m => cases m <;> fuel_code [] <;> simp
    | _ => fuel_code []
  | data m => fuel_code []
  | monitorLoop =>
    obtain ⟨mode, cfg, hb, ms⟩ := E
    cases mode <;> fuel_code [] <;> simp
  | api c => cases c <;> fuel_code [] <;> simp
  | _ => fuel_code [] <;> simp

theorem writes_suffices (E : Env) : (writes E).Suffices E := by
  obtain ⟨mode, cfg, ⟨en, iv, ti, da⟩, ms⟩ := E
  intro g
  cases g with
  | packet raw =>
    rw [body, packet_eq]
    cases hp : M3UA.parse raw with
    | ok m => cases mode <;> cases m <;> fuel_code [] <;> simp
    | _ => fuel_code []
  | data m => cases mode <;> fuel_code []
  | monitorLoop =>
    cases mode <;> fuel_code [] <;>
      · intro e m he _
        cases e <;> simp [reply] at he ⊢
  | api c => cases c <;> fuel_code []
  | start => cases mode <;> fuel_code []
  | monitor => cases en <;> fuel_code []
  | heartbeat => cases en <;> fuel_code []
  | _ => fuel_code []

theorem gors_suffices (E : Env) : gors.Suffices E := by
  intro g
  cases g with
  | packet raw =>
    rw [body, packet_eq]
    cases hp : M3UA.parse raw with
    | ok m => cases m <;> fuel_code []
    | _ => fuel_code []
  | data m => fuel_code []
  | monitorLoop =>
    obtain ⟨mode, cfg, hb, ms⟩ := E
    cases mode <;> fuel_code []
  | api c => cases c <;> fuel_code []
  | _ => fuel_code []

/-- Goroutines are started by the library, or they are calls of the user. -/
theorem threads_bound {E : Env} {w : World} (hr : Reachable E w) : w.threads.length ≤ 3 + userCalls w + gors.done w.trace := by
  unfold Reachable at hr
  generalize hi : init E = i at hr
  induction hr with
  | refl => subst hi; exact Nat.le_refl 3
  | @tail b c hp hs ih =>
    subst hi
    have hf := (Follows.reach hp).2
    obtain ⟨sh, ts, tr⟩ := b
    cases hs with
    | env => exact ih
    | call c hc hh =>
      simp only [userCalls, List.length_append, List.map_append, List.countP_append] at ih ⊢
      have : ([Thread.fresh E (.api c)].map Thread.gor).countP ofUser = 1 := rfl
      rw [this]
      simp only [List.length_singleton]
      omega
    | run i g h o k r hc ht hx =>
      have ha := gor_set (ts := ts) (t := ⟨g, h, .op o k⟩) (t' := ⟨g, h ++ [⟨o, r⟩], k r⟩) ht rfl
      have hb : gors.done [(⟨i, g, o, r⟩ : Rec)] = (spawned o).length := by
        cases o <;> simp [Tariff.done, tot, gors, spawned]
      simp only [userCalls, List.length_append, List.map_append, List.countP_append, done_append, hb, List.length_set, List.length_map] at ih ⊢
      rw [ha]
      omega
    | sync i j gi gj hi hj oi oj ki kj ri rj hc hij hti htj hx =>
      have ha := gor_set (ts := ts) (t := ⟨gi, hi, .op oi ki⟩) (t' := ⟨gi, hi ++ [⟨oi, ri⟩], ki ri⟩) hti rfl
      have htj' : (ts.set i ⟨gi, hi ++ [⟨oi, ri⟩], ki ri⟩)[j]? = some ⟨gj, hj, .op oj kj⟩ := by
        rw [List.getElem?_set_ne hij]
        exact htj
      have hb := gor_set (t' := ⟨gj, hj ++ [⟨oj, rj⟩], kj rj⟩) htj' rfl
      simp only [userCalls, done_append, List.length_set] at ih ⊢
      rw [hb, ha]
      omega
    | loop i g g' h hc ht =>
      have hu := loop_user (hf i _ ht).1
      have hl := calls_loop (T := { gors with budget := fun _ => 1 }) (t := ⟨g, h, .ret (some g')⟩) (t' := Thread.fresh E g') ht hu.1 hu.2
      have hz : ∀ l : List Gor, tot (fun _ => 1) (l.filter ofUser) = l.countP ofUser := by
        intro l
        rw [List.countP_eq_length_filter]
        induction l.filter ofUser with
        | nil => rfl
        | cons a l ih => rw [tot_cons, ih, List.length_cons]; omega
      simp only [Tariff.callsIn, hz] at hl
      simp only [userCalls, List.length_set] at ih ⊢
      rw [hl]
      exact ih
    | crash => exact ih

end M3.Conn.Fuel
