import Verif.Lemmas.Conn.Active
import Verif.Lemmas.Conn.Est
import Verif.Lemmas.Conn.Hist
import Verif.Lemmas.Conn.Role
import Verif.Lemmas.Conn.Sched

/- The state of a connection: C46, C53, C62. -/

set_option autoImplicit false

namespace M3.Conn

open Spec

/-! ### C46: the state follows from the received datagrams -/

/-- `s` is the state that the datagrams received in `l` ask for, except that the last one may not have taken
effect yet. -/
def _root_.M3.Spec.Follows (s : St) (l : List Rec) : Prop :=
  s = stateAfter (receives l) ∨ ∃ rs raw, receives l = rs ++ [raw] ∧ s = stateAfter rs

/-- C46: as long as nobody closes the connection its state is the one that the received datagrams ask for,
where the last one may not have taken effect yet. -/
theorem c46_state {E : Env} {w : World} (h : Reachable E w) (hc : ∀ x ∈ w.trace, x.ev.op ≠ .closeEst) :
    Spec.Follows w.sh.st w.trace := by
  obtain ⟨ss, -, hi⟩ := Fold.reach h
  exact hi.gen (Est.notClosed h hc)

/-- C46: when the monitor waits for the next datagram all of the previous ones have taken effect. -/
theorem c46_settled {E : Env} {w : World} (h : Reachable E w) (hc : ∀ x ∈ w.trace, x.ev.op ≠ .closeEst)
    {i : Nat} {g : Gor} {hist : List Ev} {n : Nat} {k : Resp (.read n) → Prog (Option Gor)}
    (ht : w.threads[i]? = some ⟨g, hist, .op (.read n) k⟩) : w.sh.st = stateAfter (receives w.trace) := by
  obtain ⟨ss, hl, hi⟩ := Fold.reach h
  obtain ⟨s, hs⟩ := getElem?_some_of_length hl.1 ht
  have hok : Fold.ok s (.read n) := (wp_op.mp (hl.2 i _ s ht hs)).1
  have hf := hi.fact (Est.notClosed h hc) i s hs
  cases s <;> simp only [Fold.ok] at hok
  exact hf

/-- C46: whenever anybody observes the state, it is as above for what was received until then. -/
theorem c46_observed {E : Env} {w : World} (h : Reachable E w) {l₁ l₂ : List Rec} {x : Rec} {s : St}
    (hl : w.trace = l₁ ++ x :: l₂) (hx : observed? x.ev = some s) (hc : ∀ x ∈ l₁, x.ev.op ≠ .closeEst) :
    Spec.Follows s l₁ := by
  obtain ⟨tid, g, o, r⟩ := x
  cases o <;> simp only [observed?, reduceCtorEq, Option.some.injEq] at hx
  subst hx
  rcases h.at hl with ⟨w₀, sh', k, hist, h₀, rfl, -, he⟩ | ⟨w₀, sh', ⟨_, _, oy, ry⟩, h₀, ⟨rfl, hy⟩ | ⟨rfl, hy⟩⟩
  · cases he; exact c46_state h₀ hc
  · cases hy
  · cases hy

/-- For `c46_settled`: An ASP Up Ack and an ASP Down Ack: the state is Down after them. -/
example : ∃ w, Reachable E₀ w ∧ receives w.trace = [[1, 0, 3, 4, 0, 0, 0, 8], [1, 0, 3, 5, 0, 0, 0, 8]] ∧
    (∀ x ∈ w.trace, x.ev.op ≠ .closeEst) ∧ observes w.trace = [.down, .inactive] ∧ w.sh.st = .down ∧
    stateAfter (receives w.trace) = .down := by
  obtain ⟨w, h1, h2⟩ := reach_of (E := E₀) (f := fun w => (receives w.trace, observes w.trace, w.sh.st, 
      w.trace.all fun x => decide (x.ev.op ≠ .closeEst)))
    (cs := boot .client ++ [.deliver [1, 0, 3, 4, 0, 0, 0, 8]] ++ go 2 2 ++ [.loop 2] ++ go 4 3
      ++ [.sync 4 2] ++ go 2 6 ++ [.deliver [1, 0, 3, 5, 0, 0, 0, 8]] ++ go 2 2 ++ [.loop 2] ++ go 5 2
      ++ [.sync 5 2] ++ go 2 2 ++ [.loop 2, .sync 5 2] ++ go 2 6)
    (v := ([[1, 0, 3, 4, 0, 0, 0, 8], [1, 0, 3, 5, 0, 0, 0, 8]], [.down, .inactive], .down, true)) (by kernel_rfl)
  simp only [Prod.mk.injEq, List.all_eq_true, decide_eq_true_eq] at h2
  exact ⟨w, h1, h2.1, h2.2.2.2, h2.2.1, h2.2.2.1, by rw [h2.1]; decide +kernel⟩

/-! ### C53: `Dial` and `Accept` -/

/-- C53: when `Dial` or `Accept` returns a connection, ASP Active or ASP Active Ack was received before. -/
theorem c53_opened {E : Env} {w : World} (h : Reachable E w) {l₁ l₂ : List Rec} {x : Rec}
    (hl : w.trace = l₁ ++ x :: l₂) (hx : x.ev.op = .opened .conn) : activated l₁ := by
  obtain ⟨tid, g, o, r⟩ := x
  simp only at hx
  subst hx
  rcases h.at hl with ⟨w₀, sh', k, hist, h₀, rfl, ht, he⟩ | ⟨w₀, sh', ⟨_, _, oy, ry⟩, h₀, ⟨rfl, hy⟩ | ⟨rfl, hy⟩⟩
  · exact (Active.reach h₀).2 (Est.opened h₀ ht)
  · cases hy
  · cases hy

theorem Step.handed {E : Env} {w w' : World} (hs : Step E w w') (h : w.sh.handed = true) : w'.sh.handed = true := by
  cases hs with
  | env _ he => cases he <;> exact h
  | run i g h' o k r _ _ hx => cases hx <;> exact h
  | sync i j gi gj hi hj oi oj ki kj ri rj _ _ _ _ hx => cases hx <;> first | exact h | rfl
  | _ => exact h

/-- The methods of a connection are called after it was handed over. -/
theorem api_handed {E : Env} {w : World} (h : Reachable E w) {t : Thread} {c : Api}
    (ht : t ∈ w.threads) (hc : t.gor = .api c) : w.sh.handed = true := by
  rw [Reachable] at h
  generalize hi' : init E = w₀ at h
  induction h generalizing t with
  | refl => subst hi'; simp [init, Thread.fresh] at ht; rcases ht with rfl | rfl | rfl <;> cases hc
  | @tail a b hab hs ih =>
    have keep : ∀ {t : Thread}, t ∈ a.threads → t.gor = .api c → b.sh.handed = true := fun h1 h2 => hs.handed (ih h1 h2)
    cases hs with
    | env => exact keep ht hc
    | call c' _ hh => exact hh
    | run i g h' o k r _ hti hx =>
      rcases List.mem_append.mp ht with h1 | h1
      · rcases List.mem_or_eq_of_mem_set h1 with h1 | rfl
        · exact keep h1 hc
        · exact keep (List.mem_of_getElem? hti) hc
      · obtain ⟨g', h2, rfl⟩ := List.mem_map.mp h1
        obtain rfl : g' = .api c := hc
        cases o <;> simp [spawned] at h2
        subst h2
        have := (Role.pending (by subst hi'; exact hab) hti).2
        cases this
    | sync i j gi gj hi hj oi oj ki kj ri rj _ _ hti htj hx =>
      rcases List.mem_or_eq_of_mem_set ht with h1 | rfl
      · rcases List.mem_or_eq_of_mem_set h1 with h1 | rfl
        · exact keep h1 hc
        · exact keep (List.mem_of_getElem? hti) hc
      · exact keep (List.mem_of_getElem? htj) hc
    | loop i g g' h' _ hti =>
      rcases List.mem_or_eq_of_mem_set ht with h1 | rfl
      · exact keep h1 hc
      · have := loops ((Follows.reach (by subst hi'; exact hab)).2 i _ hti).1
        obtain rfl : g' = .api c := hc
        cases this
    | crash => exact keep ht hc

/-- C53: so it was before any call of the user. -/
theorem c53_call {E : Env} {w : World} (h : Reachable E w) {i : Nat} {t : Thread} {c : Api}
    (ht : w.threads[i]? = some t) (hc : t.gor = .api c) : activated w.trace := by
  exact (Active.reach h).2 (api_handed h (List.mem_of_getElem? ht) hc)

/-- For `c53_opened`: `Dial` does return a connection. -/
example (E : Env) : ∃ w, Reachable E w ∧ (w.trace.getLast?.map fun x => x.ev.op) = some (.opened .conn) :=
  reach_of (cs := opening E.mode) (by obtain ⟨mode, cfg, hb, ms⟩ := E; cases mode <;> kernel_rfl)

/-! ### C62: sending is for active connections -/

/-- C62: whoever observes AspActive does so after ASP Active or ASP Active Ack was received. -/
theorem c62_active {E : Env} {w : World} (h : Reachable E w) {l₁ l₂ : List Rec} {x : Rec}
    (hl : w.trace = l₁ ++ x :: l₂) (hx : observed? x.ev = some .active) : activated l₁ := by
  obtain ⟨tid, g, o, r⟩ := x
  cases o <;> simp only [observed?, reduceCtorEq, Option.some.injEq] at hx
  subst hx
  rcases h.at hl with ⟨w₀, sh', k, hist, h₀, rfl, -, he⟩ | ⟨w₀, sh', ⟨_, _, oy, ry⟩, h₀, ⟨rfl, hy⟩ | ⟨rfl, hy⟩⟩
  · refine (Active.reach h₀).1 ?_
    have : ∀ {sh sh' : Shared} {r : St}, Exec sh .state r sh' → sh.st = r := fun h => by cases h; rfl
    exact this he
  · cases hy
  · cases hy

/-- The methods that send user data. -/
def _root_.M3.Spec.sender : Gor → Bool
  | .api (.write _) | .api (.writeToStream ..) | .api (.writePD _) | .api (.writePDToStream ..) => true
  | _ => false

/-- Datagrams are sent after the state was observed, once, to be AspActive. -/
def Checked (s : List Ev) (o : Op) : Prop :=
  match o with
  | .write .. => s.filterMap observed? = [.active]
  | _ => True

theorem checked (E : Env) (g : Gor) (hg : sender g = true) :
    WP (Hist Checked) g (fun _ _ => True) [] (body E g) := by
  cases g with
  | api c =>
    cases c <;> simp only [sender, Bool.false_eq_true] at hg <;>
    wp_code [Hist.ok_eq, Hist.may_eq, Hist.next_eq, Checked, Facts.may, List.nil_append, List.append_assoc,
      List.cons_append, List.filterMap_append, List.filterMap_cons, List.filterMap_nil, observed?] <;>
    simp +contextual
  | _ => cases hg

/-- C62: before `Write`, `WriteToStream`, `WritePD` or `WritePDToStream` hands a datagram to SCTP, the same call has
observed AspActive, and before that an ASP Active or ASP Active Ack was received. -/
theorem c62_sent {E : Env} {w : World} (h : Reachable E w) {l₁ l₂ : List Rec} {x : Rec} {d : Sent}
    (hl : w.trace = l₁ ++ x :: l₂) (hg : sender x.gor = true) (hx : sent? x.ev = some d) :
    ∃ l₃ y l₄, l₁ = l₃ ++ y :: l₄ ∧ y.tid = x.tid ∧ y.gor = x.gor ∧ observed? y.ev = some .active ∧ activated l₃ := by
  have hof : w.of x.tid = l₁.filter (·.tid == x.tid) ++ x :: l₂.filter (·.tid == x.tid) := by
    rw [World.of, hl, List.filter_append, List.filter_cons_of_pos (by simp)]
  obtain ⟨pre, h₁, hp, hc⟩ := Hist.iter h hof (checked E x.gor hg)
  have hc : h₁.filterMap observed? = [.active] := by
    obtain ⟨tid, g, o, r⟩ := x
    cases o <;> simp only [sent?, reduceCtorEq] at hx
    exact hc
  obtain ⟨e, he, hea⟩ := List.mem_filterMap.mp (show St.active ∈ h₁.filterMap observed? by rw [hc]; simp)
  have hm : (⟨x.tid, x.gor, e⟩ : Rec) ∈ l₁ := by
    refine (List.mem_filter.mp (show _ ∈ l₁.filter (·.tid == x.tid) from ?_)).1
    rw [hp]
    exact List.mem_append_right _ (List.mem_map.mpr ⟨e, he, rfl⟩)
  obtain ⟨l₃, l₄, h4⟩ := List.append_of_mem hm
  exact ⟨l₃, _, l₄, h4, rfl, rfl, hea, c62_active h (l₁ := l₃) (l₂ := l₄ ++ x :: l₂) (x := ⟨x.tid, x.gor, e⟩)
    (by rw [hl, h4]; simp) hea⟩

/-- A `Write` that sends. -/
example : ∃ w, Reachable E₀ w ∧ (sends (w.of 5)).length = 1 ∧ (w.of 5).map Rec.gor = List.replicate 5 (.api (.write [1, 2])) := by
  obtain ⟨w, h1, h2⟩ := reach_of (E := E₀) (f := fun w => ((sends (w.of 5)).length, (w.of 5).map Rec.gor))
    (cs := opening .client ++ [.call (.write [1, 2])] ++ go 5 5)
    (v := (1, List.replicate 5 (.api (.write [1, 2])))) (by kernel_rfl)
  simp only [Prod.mk.injEq] at h2
  exact ⟨w, h1, h2⟩

end M3.Conn
