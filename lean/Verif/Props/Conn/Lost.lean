import Verif.Props.Conn.Heartbeats
import Verif.Props.Conn.Hang

/- A wakeup that comes too early (C78), goroutines that nobody waits for (C79). -/

set_option autoImplicit false
set_option linter.unusedSimpArgs false

namespace M3.Conn

open Spec

/-! ### C78 -/

/-- How often something was done. -/
def times (o : Op) (l : List Rec) : Nat := l.countP fun x => x.ev.op = o

theorem times_append (o : Op) (l m : List Rec) : times o (l ++ m) = times o l + times o m := List.countP_append

theorem times_one (o : Op) (x : Rec) : times o [x] = if x.ev.op = o then 1 else 0 := by
  simp [times, List.countP_cons]

theorem times_pos {o : Op} {l : List Rec} : 0 < times o l ↔ Wake.Did o l := by
  simp [times, List.countP_pos_iff, Wake.Did]

/-- `Dial` / `Accept` stops waiting once, and at most once it does so because it is notified. -/
theorem est_once {E : Env} {w : World} (h : Reachable E w) :
    times .estSelect w.trace ≤ 1 ∧ times .sendEst w.trace ≤ times .estSelect w.trace := by
  have h0 := h
  rw [Reachable] at h
  generalize hi : init E = w₀ at h
  induction h with
  | refl => subst hi; exact ⟨Nat.zero_le _, Nat.zero_le _⟩
  | @tail a c hab hs ih =>
    have ha : Reachable E a := by rw [Reachable, hi]; exact hab
    obtain ⟨i1, i2⟩ := ih ha
    have hn : ∀ {i : Nat} {g : Gor} {hist : List Ev} {k : Resp .estSelect → Prog (Option Gor)},
        a.threads[i]? = some ⟨g, hist, .op .estSelect k⟩ → times .estSelect a.trace = 0 := by
      intro i g hist k ht
      rcases Nat.eq_zero_or_pos (times .estSelect a.trace) with h | h
      · exact h
      · obtain ⟨x, hx, ho⟩ := times_pos.mp h
        exact (not_waiting ha ⟨x, hx, ho⟩ ht).elim
    cases hs with
    | env => exact ⟨i1, i2⟩
    | call => exact ⟨i1, i2⟩
    | loop => exact ⟨i1, i2⟩
    | crash => exact ⟨i1, i2⟩
    | run i g hist o k r _ ht hx =>
      simp only [times_append, times_one]
      have : o ≠ .sendEst := by rintro rfl; cases hx
      rw [if_neg this]
      split
      · rename_i ho
        subst ho
        have := hn ht
        omega
      · omega
    | sync i j gi gj hi' hj' oi oj ki kj ri rj _ hij hti htj hx =>
      have e : ∀ x y : Rec, [x, y] = [x] ++ [y] := fun _ _ => rfl
      simp only [times_append, e, times_one]
      cases hx with
      | est =>
        have := hn htj
        simp only [reduceCtorEq, if_false, if_true]
        omega
      | _ => simpa using ⟨i1, i2⟩

/-- The goroutine that sends heartbeats is woken right after `Dial` / `Accept` was notified, or after the association was closed. -/
theorem broadcasts_last (E : Env) (g : Gor) : WP (Hist fun s o => o = .broadcast →
    (s.getLast?.map Ev.op) = some .sendEst ∨ .sctpClose ∈ s.map Ev.op) g (fun _ _ => True) [] (body E g) := by
  cases g with
  | monitorLoop =>
    obtain ⟨mode, cfg, hb, ms⟩ := E
    cases mode <;> wp_code [Hist.ok_eq, Hist.may_eq, Hist.next_eq] <;> simp [List.map_append]
  | packet raw =>
    rw [body, packet_eq]
    cases hp : M3UA.parse raw with
    | ok m => cases m <;> wp_code [Hist.ok_eq, Hist.may_eq, Hist.next_eq] <;> simp
    | _ => wp_code []
  | api c => cases c <;> wp_code [Hist.ok_eq, Hist.may_eq, Hist.next_eq] <;> simp
  | _ => wp_code [Hist.ok_eq, Hist.may_eq, Hist.next_eq] <;> simp

theorem broadcast_after {E : Env} {w : World} (h : Reachable E w) (hn : ¬ shut w.trace) {l₁ l₂ : List Rec} {x : Rec}
    (hl : w.of 2 = l₁ ++ x :: l₂) (hx : x.ev.op = .broadcast) : ∃ l y, l₁ = l ++ [y] ∧ y.ev.op = .sendEst := by
  obtain ⟨pre, h₁, rfl, hP⟩ := Hist.iter h hl (broadcasts_last E x.gor)
  rcases hP hx with hP | hP
  · rcases List.eq_nil_or_concat h₁ with rfl | ⟨h₂, e, rfl⟩
    · cases hP
    · rw [List.concat_eq_append] at hP ⊢
      rw [List.getLast?_append] at hP
      exact ⟨pre ++ h₂.map fun e => ⟨2, x.gor, e⟩, ⟨2, x.gor, e⟩, by simp, by simpa using hP⟩
  · obtain ⟨e, he, ho⟩ := List.mem_map.mp hP
    refine absurd ⟨⟨2, x.gor, e⟩, ?_, ho⟩ hn
    exact (List.mem_filter.mp (show _ ∈ w.of 2 by rw [hl]; simp [he])).1

theorem broadcast_only (E : Env) (g : Gor) : WP (Hist fun _ o => o = .broadcast → g = .monitorLoop) g (fun _ _ => True) []
    (body E g) := by
  cases g with
  | monitorLoop =>
    obtain ⟨mode, cfg, hb, ms⟩ := E
    cases mode <;> wp_code [Hist.ok_eq, Hist.may_eq, Hist.next_eq]
  | packet raw =>
    rw [body, packet_eq]
    cases hp : M3UA.parse raw with
    | ok m => cases m <;> wp_code [Hist.ok_eq, Hist.may_eq, Hist.next_eq] <;> simp
    | _ => wp_code []
  | api c => cases c <;> wp_code [Hist.ok_eq, Hist.may_eq, Hist.next_eq] <;> simp
  | _ => wp_code [Hist.ok_eq, Hist.may_eq, Hist.next_eq] <;> simp

theorem broadcast_tid {E : Env} {w : World} (h : Reachable E w) {x : Rec} (hx : x ∈ w.trace) (ho : x.ev.op = .broadcast) :
    x.tid = 2 := by
  have hr := Role.reach h x hx
  obtain ⟨l₁, l₂, hl⟩ := List.append_of_mem (show x ∈ w.of x.tid from List.mem_filter.mpr ⟨hx, by simp⟩)
  obtain ⟨-, -, -, hP⟩ := Hist.iter h hl (broadcast_only E x.gor)
  rw [hP ho] at hr
  exact hr.1.2.2.mp rfl

/-- As long as the association is not closed, the goroutine that sends heartbeats is woken at most once. -/
theorem broadcast_once {E : Env} {w : World} (h : Reachable E w) (hn : ¬ shut w.trace) {l₁ l₂ : List Rec} {x y : Rec}
    (hl : w.trace = l₁ ++ x :: l₂) (hx : x.ev.op = .broadcast) (hy : y ∈ l₁) (ho : y.ev.op = .broadcast) : False := by
  obtain ⟨a, b, rfl⟩ := List.append_of_mem hy
  have hx2 := broadcast_tid h (x := x) (by rw [hl]; simp) hx
  have hy2 := broadcast_tid h (x := y) (by rw [hl]; simp) ho
  have hof : w.of 2 = (a.filter (·.tid == 2) ++ y :: b.filter (·.tid == 2)) ++ x :: l₂.filter (·.tid == 2) := by
    rw [World.of, hl, List.filter_append, List.filter_append, List.filter_cons_of_pos (by simp [hy2]),
      List.filter_cons_of_pos (by simp [hx2])]
  obtain ⟨m, z, hm, hz⟩ := broadcast_after h hn hof hx
  obtain ⟨m', z', hm', hz'⟩ := broadcast_after h hn (by rw [hof, List.append_assoc, List.cons_append]) ho
  have h1 : 1 ≤ times .sendEst (a.filter (·.tid == 2)) := by
    rw [hm', times_append, times_one, if_pos hz']; omega
  have h2 : 1 ≤ times .sendEst (b.filter (·.tid == 2)) := by
    rcases List.eq_nil_or_concat (b.filter (·.tid == 2)) with hb | ⟨c, e, hb⟩
    · rw [hb] at hm
      have := (List.append_inj' hm rfl).2
      cases this
      rw [ho] at hz; cases hz
    · rw [hb, List.concat_eq_append, ← List.cons_append, ← List.append_assoc] at hm
      have := (List.append_inj' hm rfl).2
      cases this
      rw [hb, List.concat_eq_append, times_append, times_one, if_pos hz]; omega
  have h3 : times .sendEst (w.of 2) ≤ times .sendEst w.trace := by
    rw [times, times, World.of]
    exact List.Sublist.countP_le List.filter_sublist
  have h4 := est_once h
  have h5 : times .sendEst (w.of 2) = times .sendEst (a.filter (·.tid == 2)) + times .sendEst (y :: b.filter (·.tid == 2)) +
      times .sendEst (x :: l₂.filter (·.tid == 2)) := by rw [hof, times_append, times_append]
  have h6 : times .sendEst (b.filter (·.tid == 2)) ≤ times .sendEst (y :: b.filter (·.tid == 2)) := by
    rw [times, times]
    exact List.Sublist.countP_le (List.sublist_cons_self _ _)
  omega

/-- The goroutine that sends heartbeats was not waiting when it should have been woken. -/
structure Missed (w : World) : Prop where
  woken : ∃ x ∈ w.trace, x.ev.op = .broadcast
  asleep : ∀ x ∈ w.trace, x.ev.op ≠ .waitLeave
  cond : w.sh.cond ≠ .woken

theorem shut.mono {l : List Rec} (m : List Rec) (h : shut l) : shut (l ++ m) := by
  obtain ⟨x, h1, h2⟩ := h
  exact ⟨x, List.mem_append_left _ h1, h2⟩

theorem Missed.step {E : Env} {w w' : World} (h : Reachable E w) (hm : Missed w) (hs : Step E w w') (hn : ¬ shut w'.trace) :
    Missed w' := by
  have h' : Reachable E w' := .tail h hs
  obtain ⟨y, hy, hyo⟩ := hm.woken
  cases hs with
  | env _ he => cases he <;> exact ⟨⟨y, hy, hyo⟩, hm.asleep, hm.cond⟩
  | call => exact ⟨⟨y, hy, hyo⟩, hm.asleep, hm.cond⟩
  | loop => exact ⟨⟨y, hy, hyo⟩, hm.asleep, hm.cond⟩
  | crash => exact ⟨⟨y, hy, hyo⟩, hm.asleep, hm.cond⟩
  | run i g hist o k r _ ht hx =>
    have h1 : o ≠ .broadcast := fun ho => broadcast_once h' hn (l₂ := []) rfl ho hy hyo
    have h2 : o ≠ .waitLeave := by
      rintro rfl
      cases hx
      exact hm.cond (by assumption)
    refine ⟨⟨y, List.mem_append_left _ hy, hyo⟩, fun x hx' => ?_, ?_⟩
    · rcases List.mem_append.mp hx' with h3 | h3
      · exact hm.asleep x h3
      · cases List.mem_singleton.mp h3; exact h2
    · clear h' ht hn
      cases hx <;> first | exact hm.cond | exact absurd rfl h1 | nofun
  | sync i j gi gj hi' hj' oi oj ki kj ri rj _ hij hti htj hx =>
    refine ⟨⟨y, List.mem_append_left _ hy, hyo⟩, fun x hx' => ?_, ?_⟩
    · rcases List.mem_append.mp hx' with h3 | h3
      · exact hm.asleep x h3
      · simp only [List.mem_cons, List.not_mem_nil, or_false] at h3
        rcases h3 with rfl | rfl <;> cases hx <;> nofun
    · cases hx <;> exact hm.cond

/-- **C78.** The signal that starts heartbeats is not remembered. If the goroutine that sends them was not waiting when it was given,
no heartbeat is ever sent: until the association is closed, that goroutine does not leave its wait. -/
theorem c78_missed {E : Env} {w w' : World} (h : Reachable E w) (hm : Missed w) (hs : Steps E w w') (hn : ¬ shut w'.trace) :
    Missed w' ∧ ∀ x ∈ w'.trace, x.gor ≠ .beatLoop := by
  have key : Missed w' := by
    induction hs with
    | refl => exact hm
    | tail hab hs ih =>
      refine (ih fun hsh => hn ?_).step (Steps.trans h hab) hs hn
      obtain ⟨l, hl⟩ := hs.trace
      rw [hl]
      exact shut.mono l hsh
  refine ⟨key, fun x hx hg => ?_⟩
  obtain ⟨l₁, l₂, hl⟩ := List.append_of_mem hx
  obtain ⟨w₀, l₃, k, hist, h₀, rfl, ht⟩ := Reachable.was (Steps.trans h hs) hl
  obtain ⟨y, hy, hyo⟩ := Wake.left h₀ ht hg
  exact key.asleep y (by rw [hl]; simp [(List.mem_filter.mp hy).1]) hyo

/-- Whether something was done. -/
def did (p : Op → Bool) (w : World) : Bool := w.trace.any fun x => p x.ev.op

/-- The code that goroutine 3 is executing, if it has not come to its end. -/
def third (w : World) : Option (Gor × Bool) := (w.threads[3]? : Option Thread).map fun t => (t.gor, t.prog.result?.isNone)

/-- **C78.** The hypotheses of `c78_missed` are met: whatever the configuration, an active connection that the user holds can be in this situation, with the goroutine that
sends heartbeats waiting for the signal that was given before. -/
theorem c78_reachable (E : Env) : ∃ w, Reachable E w ∧ Missed w ∧ w.sh.st = .active ∧ w.sh.handed = true ∧ ¬ shut w.trace ∧
    w.sh.cond = .waiting ∧ third w = some (.heartbeat, true) := by
  have h : (play (body' E) (init E) (opening E.mode ++ go 3 1)).map
      (fun w => (did (fun o => match o with | .broadcast => true | _ => false) w,
        did (fun o => match o with | .waitLeave | .sctpClose => true | _ => false) w, w.sh.cond, w.sh.st, w.sh.handed, third w)) =
      some (true, false, .waiting, .active, true, some (.heartbeat, true)) := by
    obtain ⟨mode, cfg, hb, ms⟩ := E
    cases mode <;> kernel_rfl
  obtain ⟨w, hw, he⟩ := reach_of h
  simp only [Prod.mk.injEq] at he
  obtain ⟨h1, h2, h3, h4, h5, h6⟩ := he
  obtain ⟨x, hx, hb⟩ := List.any_eq_true.mp h1
  have hn : ∀ x ∈ w.trace, x.ev.op ≠ .waitLeave ∧ x.ev.op ≠ .sctpClose := fun x hx => by
    have := List.any_eq_false.mp h2 x hx
    constructor <;> intro ho <;> rw [ho] at this <;> exact this rfl
  refine ⟨w, hw, ⟨⟨x, hx, ?_⟩, fun x hx => (hn x hx).1, by rw [h3]; nofun⟩, h4, h5, ?_, h3, h6⟩
  · revert hb
    generalize x.ev.op = o
    cases o <;> simp
  · rintro ⟨x, hx, ho⟩
    exact (hn x hx).2 ho

/-! ### C79 -/

/-- What is reported to the monitor. -/
def reporting : Op → Bool
  | .sendErr _ | .sendState _ => true
  | _ => false

/-- The goroutine that runs `monitor` has returned. -/
def ended (w : World) : Prop := ∃ g hist, w.threads[2]? = some ⟨g, hist, .ret none⟩

theorem ended_mon {E : Env} {w : World} (h : Reachable E w) (he : ended w) {j : Nat} {gj : Gor} {hj : List Ev}
    {kj : Resp .monSelect → Prog (Option Gor)} (htj : w.threads[j]? = some ⟨gj, hj, .op .monSelect kj⟩) : False := by
  obtain ⟨g, hist, he⟩ := he
  have hr := Role.pending h htj
  have hg : gj = .monitorLoop := by simpa [Role.role] using hr.2
  subst hg
  have : j = 2 := hr.1.2.2.mp rfl
  subst this
  rw [he] at htj; cases htj

/-- **C79.** When the goroutine that runs `monitor` has returned, a goroutine that has to report an error or a state waits for ever. -/
theorem c79_leak {E : Env} {w w' : World} (h : Reachable E w) (he : ended w) {i : Nat} {g : Gor} {hist : List Ev} {o : Op}
    {k : Resp o → Prog (Option Gor)} (ht : w.threads[i]? = some ⟨g, hist, .op o k⟩) (ho : reporting o = true)
    (hs : Steps E w w') : w'.threads[i]? = some ⟨g, hist, .op o k⟩ ∧ ended w' := by
  induction hs with
  | refl => exact ⟨ht, he⟩
  | @tail a c hab hs ih =>
    obtain ⟨ht, he⟩ := ih
    have ha : Reachable E a := Steps.trans h hab
    have hmon := @ended_mon E a ha he
    obtain ⟨g2, hist2, he⟩ := he
    have hlt : i < a.threads.length := (List.getElem?_eq_some_iff.mp ht).1
    have hlt2 : 2 < a.threads.length := (List.getElem?_eq_some_iff.mp he).1
    cases hs with
    | env _ he' => cases he' <;> exact ⟨ht, g2, hist2, he⟩
    | call => exact ⟨by simpa only [List.getElem?_append_left hlt] using ht, g2, hist2,
        by simpa only [List.getElem?_append_left hlt2] using he⟩
    | loop j g' g'' hist' _ htj =>
      have hne : j ≠ i := by rintro rfl; rw [ht] at htj; cases htj
      have hne2 : j ≠ 2 := by rintro rfl; rw [he] at htj; cases htj
      exact ⟨by simp only [List.getElem?_set_ne hne]; exact ht, g2, hist2, by simp only [List.getElem?_set_ne hne2]; exact he⟩
    | crash => exact ⟨ht, g2, hist2, he⟩
    | run j g' hist' o' k' r _ htj hx =>
      have hne : j ≠ i := by
        rintro rfl
        rw [ht] at htj; cases htj
        cases hx <;> cases ho
      have hne2 : j ≠ 2 := by rintro rfl; rw [he] at htj; cases htj
      exact ⟨by rw [List.getElem?_append_left (by simpa using hlt), List.getElem?_set_ne hne]; exact ht, g2, hist2,
        by rw [List.getElem?_append_left (by simpa using hlt2), List.getElem?_set_ne hne2]; exact he⟩
    | sync j l gj gl hj hl oj ol kj kl rj rl _ hjl htj htl hx =>
      have hj2 : j ≠ 2 := by rintro rfl; rw [he] at htj; cases htj
      have hl2 : l ≠ 2 := by rintro rfl; rw [he] at htl; cases htl
      have hji : j ≠ i := by
        rintro rfl
        rw [ht] at htj; cases htj
        cases hx <;> first | exact hmon htl | cases ho
      have hli : l ≠ i := by
        rintro rfl
        rw [ht] at htl; cases htl
        cases hx <;> cases ho
      exact ⟨by simp only [List.getElem?_set_ne hli, List.getElem?_set_ne hji]; exact ht, g2, hist2,
        by simp only [List.getElem?_set_ne hl2, List.getElem?_set_ne hj2]; exact he⟩

/-- What goroutine `i` is waiting for, if it wants to report something to the monitor. -/
def stuckAt (w : World) (i : Nat) : Bool := match (w.threads[i]? : Option Thread) with
  | some ⟨_, _, .op o _⟩ => reporting o
  | _ => false

/-- Whether the goroutine that runs `monitor` has returned. -/
def monEnded (w : World) : Bool := match (w.threads[2]? : Option Thread) with
  | some ⟨_, _, .ret none⟩ => true
  | _ => false

/-- **C79.** The hypotheses of `c79_leak` are met: whatever the configuration, this can happen: the context is cancelled while a received message is being handled. -/
theorem c79_reachable (E : Env) : ∃ w g hist o k, Reachable E w ∧ ended w ∧ w.sh.sctpClosed = true ∧ w.sh.st = .down ∧
    w.threads[5]? = some ⟨g, hist, .op o k⟩ ∧ reporting o = true := by
  have h : (play (body' E) (init E) (opening E.mode ++ [.deliver inactiveAck] ++ go 2 2 ++ [.loop 2] ++ go 5 2 ++ [.cancel] ++ go 2 10)).map
      (fun w => (stuckAt w 5, monEnded w, w.sh.sctpClosed, w.sh.st)) = some (true, true, true, .down) := by
    obtain ⟨mode, cfg, hb, ms⟩ := E
    cases mode <;> kernel_rfl
  obtain ⟨w, hw, hv⟩ := reach_of h
  simp only [Prod.mk.injEq] at hv
  obtain ⟨h1, h2, h3, h4⟩ := hv
  unfold stuckAt at h1
  unfold monEnded at h2
  split at h1
  · rename_i g hist o k ht
    split at h2
    · rename_i g2 hist2 ht2
      exact ⟨w, g, hist, o, k, hw, ⟨g2, hist2, ht2⟩, h3, h4, ht, h1⟩
    · cases h2
  · cases h1

end M3.Conn
