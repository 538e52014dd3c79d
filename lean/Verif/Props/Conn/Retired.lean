import Verif.Lemmas.Conn.LinkSched
import Verif.Lemmas.Conn.MonRound
import Verif.Props.Conn.Calls
import Verif.Props.Conn.Hang
import Verif.Props.Conn.Monitor
import Verif.Props.Conn.State

/- What becomes of a connection that leaves AspActive, and what a client asks for: C102. -/

set_option autoImplicit false
set_option linter.unusedSimpArgs false

namespace M3.Spec

open M3.Conn

/-- The methods that send or return payloads. -/
def payloadCall : Api → Bool
  | .read _ | .readPD | .write _ | .writeToStream .. | .writePD _ | .writePDToStream .. => true
  | _ => false

/-- State set by a trace entry. -/
def put? : Ev → Option St
  | ⟨.putSt s, _⟩ => some s
  | _ => none

/-- Bytes sent by a trace entry, unless they are an Error message. -/
def asked? (e : Ev) : Option (List UInt8) := (sent? e).bind fun s => if octets s.bytes = (0, 0) then none else some s.bytes

end M3.Spec

namespace M3.Conn

open Spec

/-! ### Once out of service, always out of service -/

theorem observed_now {E : Env} {w w' : World} (hs : Step E w w') : ∃ l, w'.trace = w.trace ++ l ∧
    ∀ x ∈ l, ∀ s, observed? x.ev = some s → w.sh.st = s := by
  cases hs with
  | run i g hist o k r _ ht hx =>
    refine ⟨_, rfl, fun x hm s hs => ?_⟩
    cases List.mem_singleton.mp hm
    cases o <;> simp only [observed?, reduceCtorEq, Option.some.injEq] at hs
    subst hs
    have : ∀ {sh sh' : Shared} {r : St}, Exec sh .state r sh' → sh.st = r := fun h => by cases h; rfl
    exact this hx
  | sync i j gi gj hi hj oi oj ki kj ri rj _ _ _ _ hx =>
    refine ⟨_, rfl, fun x hm s hs => ?_⟩
    simp only [List.mem_cons, List.not_mem_nil, or_false] at hm
    rcases hm with rfl | rfl <;> cases hx <;> cases hs
  | env _ he => cases he <;> exact ⟨[], by simp, by simp⟩
  | call => exact ⟨[], by simp, by simp⟩
  | loop => exact ⟨[], by simp, by simp⟩
  | crash => exact ⟨[], by simp, by simp⟩

/-- C102: once `Dial` or `Accept` has stopped waiting and the state is not AspActive, nobody ever observes AspActive again, whatever
the peer and the user do. -/
theorem c102_never {E : Env} {w₁ w : World} (h : Reachable E w₁) (hd : decided w₁.trace) (h1 : w₁.sh.st ≠ .active)
    (h2 : Steps E w₁ w) : ∃ l, w.trace = w₁.trace ++ l ∧ ∀ x ∈ l, observed? x.ev ≠ some .active := by
  suffices ∃ l, w.trace = w₁.trace ++ l ∧ (∀ x ∈ l, observed? x.ev ≠ some .active) ∧ (w.sh.st ≠ .active ∨ ∃ hist k, Blocked w hist k) by
    obtain ⟨l, h3, h4, -⟩ := this
    exact ⟨l, h3, h4⟩
  induction h2 with
  | refl => exact ⟨[], by simp, by simp, .inl h1⟩
  | @tail a b hab hs ih =>
    obtain ⟨l, h3, h4, h5⟩ := ih
    have ha : Reachable E a := Steps.trans h hab
    rcases h5 with h5 | ⟨hist, k, h5⟩
    · obtain ⟨l', h6, h7⟩ := observed_now hs
      refine ⟨l ++ l', by rw [h6, h3, List.append_assoc], ?_, ?_⟩
      · intro x hx ho
        rcases List.mem_append.mp hx with hx | hx
        · exact h4 x hx ho
        · exact h5 (h7 x hx _ ho)
      · by_cases h8 : b.sh.st = .active
        · obtain ⟨hist, k, h9⟩ := notifying ha hs h5 h8
          refine .inr ⟨hist, k, h9, ?_⟩
          rw [h6, h3, List.append_assoc]
          exact decided.mono _ hd
        · exact .inl h8
    · obtain ⟨h6, -, l', h7, h8⟩ := h5.step ha hs
      refine ⟨l ++ l', by rw [h7, h3, List.append_assoc], ?_, .inr ⟨hist, k, h6⟩⟩
      intro x hx ho
      rcases List.mem_append.mp hx with hx | hx
      · exact h4 x hx ho
      · have := h8 x hx
        obtain ⟨i, g, o, r⟩ := x
        cases o <;> simp only [observed?, reduceCtorEq] at ho
        cases this

/-- Payloads are sent, taken and returned after the state was observed to be AspActive. -/
def Looked (s : List Ev) (o : Op) : Prop :=
  match o with
  | .write .. | .recvData => .active ∈ s.filterMap observed?
  | .done r => .active ∈ s.filterMap observed? ∨ r = .fail .notEstablished
  | _ => True

theorem looked (E : Env) (c : Api) (hc : payloadCall c = true) :
    WP (Hist Looked) (.api c) (fun _ _ => True) [] (body E (.api c)) := by
  cases c <;> simp only [payloadCall, Bool.false_eq_true] at hc <;>
    wp_code [Hist.ok_eq, Hist.may_eq, Hist.next_eq, Looked, Facts.may, List.nil_append, List.append_assoc,
      List.cons_append, List.filterMap_append, List.filterMap_cons, List.filterMap_nil, observed?] <;>
    simp +contextual

/-- C102: so no call made from then on sends, takes or returns a payload: what it returns, if it returns, is `ErrNotEstablished`. -/
theorem c102_calls {E : Env} {w₁ w : World} (h : Reachable E w₁) (hd : decided w₁.trace) (h1 : w₁.sh.st ≠ .active)
    (h2 : Steps E w₁ w) {i : Nat} {t : Thread} (ht : w.threads[i]? = some t) {c : Api} (hc : t.gor = .api c)
    (hp : payloadCall c = true) (hi : w₁.threads.length ≤ i) :
    sends (w.of i) = [] ∧ takes (w.of i) = [] ∧ ∀ r ∈ returns (w.of i), r = .fail .notEstablished := by
  obtain ⟨l, h3, h4⟩ := c102_never h hd h1 h2
  have hw : Reachable E w := Steps.trans h h2
  have key : ∀ x ∈ w.of i, observed? x.ev ≠ some .active := by
    intro x hx
    obtain ⟨h5, h6⟩ := List.mem_filter.mp hx
    rw [h3] at h5
    rcases List.mem_append.mp h5 with h5 | h5
    · have := (Follows.reach h).1 x h5
      have h6 : x.tid = i := by simpa using h6
      omega
    · exact h4 x h5
  have at' : ∀ x ∈ w.of i, (∀ b s, x.ev.op ≠ .write b s) ∧ x.ev.op ≠ .recvData ∧
      ∀ r, x.ev.op = .done r → r = .fail .notEstablished := by
    intro x hx
    obtain ⟨l₁, l₂, hl⟩ := List.append_of_mem hx
    have hP := Hist.api hw ht hc (looked E c hp) hl
    have hn : St.active ∉ (l₁.map Rec.ev).filterMap observed? := by
      intro hm
      rw [List.filterMap_map] at hm
      obtain ⟨y, hy, ho⟩ := List.mem_filterMap.mp hm
      exact key y (by rw [hl]; exact List.mem_append_left _ hy) ho
    refine ⟨?_, ?_, ?_⟩
    · intro b s e; rw [e] at hP; exact hn hP
    · intro e; rw [e] at hP; exact hn hP
    · intro r e; rw [e] at hP; exact hP.resolve_left hn
  refine ⟨List.filterMap_eq_nil_iff.mpr fun x hx => ?_, List.filterMap_eq_nil_iff.mpr fun x hx => ?_, fun r hr => ?_⟩
  · obtain ⟨a1, -, -⟩ := at' x hx
    obtain ⟨i, g, o, r⟩ := x
    cases o <;> first | rfl | exact absurd rfl (a1 _ _)
  · obtain ⟨-, a2, -⟩ := at' x hx
    obtain ⟨i, g, o, r⟩ := x
    cases o <;> first | rfl | exact absurd rfl a2
  · obtain ⟨x, hx, hr⟩ := List.mem_filterMap.mp hr
    obtain ⟨-, -, a3⟩ := at' x hx
    obtain ⟨i, g, o, r'⟩ := x
    cases o <;> simp only [returned?, reduceCtorEq, Option.some.injEq] at hr
    exact a3 _ (by rw [hr])

/-- For `c102_never` and `c102_calls`: the connection is established, an ASP Inactive Ack arrives, and then the user calls `WriteToStream`. -/
example : ∃ w₁ w, Reachable E₀ w₁ ∧ decided w₁.trace ∧ w₁.sh.st ≠ .active ∧ Steps E₀ w₁ w ∧ w₁.threads.length = 6 ∧
    (w.threads[6]?.map Thread.gor, returns (w.of 6)) = (some (.api (.writeToStream [8, 9] 1)), [.fail .notEstablished]) := by
  obtain ⟨w₁, w₂, w, h1, h2, h3, h4⟩ := reach_step (E := E₀) (cs := opening .client ++ [.deliver inactiveAck] ++ go 2 2 ++ [.loop 2] ++ go 5 2 ++
      [.sync 5 2] ++ go 2 6) (c := .call (.writeToStream [8, 9] 1)) (ds := go 6 2)
    (f := fun w₁ w₂ w => (w₁.sh.handed, w₁.sh.st, w₁.threads.length, w.threads[6]?.map Thread.gor, returns (w.of 6)))
    (v := (true, .inactive, 6, some (.api (.writeToStream [8, 9] 1)), [.fail .notEstablished])) (by kernel_rfl)
  simp only [Prod.mk.injEq] at h4
  obtain ⟨h4, h5, h6, h7, h8⟩ := h4
  exact ⟨w₁, w, h1, handed_decided h1 h4, by rw [h5]; simp, Steps.trans (.tail (.refl _) h2) h3, h6, by rw [h7, h8]⟩

/-! ### What a client asks for -/

theorem last_put {E : Env} {w : World} (h : Reachable E w) : w.sh.st = ((w.trace.filterMap fun x => put? x.ev).getLast?).getD .down := by
  rw [Reachable] at h
  generalize hi : init E = w₀ at h
  induction h with
  | refl => subst hi; rfl
  | tail _ hs ih =>
    cases hs with
    | env _ he => cases he <;> exact ih
    | call => exact ih
    | loop => exact ih
    | crash => exact ih
    | run i g hist o k r _ _ hx =>
      cases hx <;> simp only [List.filterMap_append, List.filterMap_cons, List.filterMap_nil, put?, List.append_nil, List.getLast?_append,
        List.getLast?_singleton, Option.some_or, Option.getD_some] <;> first | exact ih | rfl
    | sync i j gi gj hi' hj' oi oj ki kj ri rj _ _ _ _ hx =>
      cases hx <;> simp only [List.filterMap_append, List.filterMap_cons, List.filterMap_nil, put?, List.append_nil] <;> exact ih

/-- What the monitor asks for in `h`, the states it sets there, and the datagrams it receives, match: `more` states are set for which
no datagram was received. -/
def Balanced (E : Env) (more : Nat) (h : List Ev) : Prop :=
  h.filterMap asked? = (h.filterMap put?).filterMap (request E.cfg E.mode) ∧
    (h.filterMap put?).length = (h.filterMap received?).length + more

/-- What has to be shown of the code of the monitor. -/
def Before (E : Env) (s : List Ev) (o : Op) : Prop :=
  match o with
  | .read _ => Balanced E 1 s
  | _ => True

theorem oct_message (c t : Nat) (b : List Bytes) : octets (message 1 c t b) = (.ofNat c, .ofNat t) := rfl

theorem before (E : Env) : WP (Hist (Before E)) .monitorLoop (fun s r => r = some .monitorLoop → Balanced E 0 s) []
    (body E .monitorLoop) := by
  obtain ⟨mode, cfg, hb, ms⟩ := E
  cases mode <;>
  wp_code [Hist.ok_eq, Hist.may_eq, Hist.next_eq, Before, Balanced, Facts.may, List.nil_append, List.append_assoc,
      List.cons_append, List.filterMap_append, List.filterMap_cons, List.filterMap_nil, put?, received?] <;>
  simp +contextual [request, asked?, sent?, oct_message, aspUp_wire, aspActive_wire, sigInfo_std]
  all_goals
    intro e m h
    simp [reply_oct h]

theorem Balanced.append {E : Env} {n m : Nat} {a b : List Ev} (ha : Balanced E n a) (hb : Balanced E m b) :
    Balanced E (n + m) (a ++ b) := by
  obtain ⟨h1, h2⟩ := ha
  obtain ⟨h3, h4⟩ := hb
  refine ⟨by simp only [List.filterMap_append, h1, h3], ?_⟩
  simp only [List.filterMap_append, List.length_append]
  omega

theorem same_class {E : Env} {g g' : Gor} {h : List Ev} (hp : Path (body E g) h (.ret (some g'))) : Role.cl g' = Role.cl g := by
  refine Triv.path (g := g) (Q := fun _ r => ∀ g', r = some g' → Role.cl g' = Role.cl g) ?_ hp g' rfl
  cases g with
  | monitorLoop =>
    obtain ⟨mode, cfg, hb, ms⟩ := E
    cases mode <;> wp_code [Triv.ok_eq, Triv.may_eq, Triv.next_eq] <;> simp [Role.cl]
  | packet raw =>
    rw [body, packet_eq]
    cases hp : M3UA.parse raw with
    | ok m => cases m <;> wp_code [Triv.ok_eq, Triv.may_eq, Triv.next_eq] <;> simp [Role.cl]
    | _ => wp_code []
  | api c => cases c <;> wp_code [Triv.ok_eq, Triv.may_eq, Triv.next_eq]
  | _ => wp_code [Triv.ok_eq, Triv.may_eq, Triv.next_eq] <;> simp [Role.cl]

theorem monitor_none (E : Env) : WP (Hist fun _ _ => True) .monitor (fun s _ => s = [⟨.spawn .heartbeat, ()⟩]) [] (body E .monitor) := by
  wp_code [Hist.ok_eq, Hist.may_eq, Hist.next_eq, List.nil_append]

theorem trail_balanced {E : Env} {i : Nat} {pre : List Rec} {g : Gor} (h : Trail E i pre g) (hg : Role.cl g = .monitor)
    (hr : Hist.Real (pre.map Rec.ev)) : Balanced E 0 (pre.map Rec.ev) := by
  induction h with
  | nil => exact ⟨rfl, rfl⟩
  | @snoc pre g g' h ht hp ih =>
    have hc : Role.cl g = .monitor := by
      have := same_class hp
      rwa [hg, eq_comm] at this
    rw [List.map_append, List.map_map, show Rec.ev ∘ (fun e => (⟨i, g, e⟩ : Rec)) = id from rfl, List.map_id] at hr ⊢
    have h1 := ih hc fun e he => hr e (List.mem_append_left _ he)
    have hr := fun e he => hr e (List.mem_append_right _ he)
    cases g <;> simp only [Role.cl, reduceCtorEq] at hc
    · have := Hist.path (monitor_none E) hr hp
      simp only [List.nil_append] at this
      subst this
      exact h1.append (n := 0) (m := 0) ⟨rfl, rfl⟩
    · have := Hist.path (before E) hr hp
      rw [List.nil_append] at this
      have hg' : g' = .monitorLoop := by
        have := loops hp
        cases g' <;> simp_all [Gor.once, Role.cl]
      exact h1.append (this (by rw [hg']))

/-- When the monitor waits for a datagram. -/
theorem waiting_balanced {E : Env} {w : World} (h : Reachable E w) {i : Nat} {g : Gor} {hist : List Ev} {n : Nat}
    {k : Resp (.read n) → Prog (Option Gor)} (ht : w.threads[i]? = some ⟨g, hist, .op (.read n) k⟩) :
    Balanced E 1 ((w.of 2).map Rec.ev) := by
  obtain ⟨h1, h2⟩ := Role.pending h ht
  have hg : g = .monitorLoop := by simpa [Role.role] using h2
  subst hg
  have hi : i = 2 := h1.2.2.mp rfl
  subst hi
  obtain ⟨hp, pre, ho, htr⟩ := (Follows.reach h).2 2 _ ht
  have hr := Hist.real_of h 2
  simp only at hp ho htr
  rw [ho, List.map_append, List.map_map, show Rec.ev ∘ (fun e => (⟨2, .monitorLoop, e⟩ : Rec)) = id from rfl, List.map_id] at hr ⊢
  have hb := trail_balanced htr rfl fun e he => hr e (List.mem_append_left _ he)
  have hw := Hist.now (before E) (fun e he => hr e (List.mem_append_right _ he)) hp
  have : Balanced E 1 hist := (wp_op.mp hw).1
  simpa using hb.append this

/-- Closing the connection: the channels are closed before the state is set. -/
theorem close_wp (E : Env) : WP (Hist fun s o => ∀ st, o = .putSt st → ∃ e ∈ s, e.op = .closeEst) (.api .close) (fun _ _ => True) []
    (body E (.api .close)) := by
  wp_code [Hist.ok_eq, Hist.may_eq, Hist.next_eq, List.nil_append, List.append_assoc, List.cons_append]
  simp

/-- As long as nobody closes the connection, only the monitor sets the state. -/
theorem put_monitor {E : Env} {w : World} (h : Reachable E w) (hc : ∀ x ∈ w.trace, x.ev.op ≠ .closeEst) {x : Rec} (hx : x ∈ w.trace) {s : St}
    (hs : put? x.ev = some s) : x.tid = 2 := by
  obtain ⟨h1, h2⟩ := Role.reach h x hx
  have ho : ∃ s, x.ev.op = .putSt s := by
    obtain ⟨i, g, o, r⟩ := x
    cases o <;> simp [put?] at hs
    exact ⟨_, rfl⟩
  obtain ⟨s', ho⟩ := ho
  rw [ho] at h2
  rcases (show x.gor = .monitorLoop ∨ x.gor = .api .close by simpa [Role.role] using h2) with hg | hg
  · rw [hg] at h1; exact h1.2.2.mp rfl
  · exfalso
    obtain ⟨l₁, l₂, hl⟩ := List.append_of_mem (show x ∈ w.of x.tid from List.mem_filter.mpr ⟨hx, by simp⟩)
    obtain ⟨pre, h₁, h3, h4⟩ := Hist.iter h hl (hg ▸ close_wp E)
    obtain ⟨e, he, h5⟩ := h4 s' ho
    refine hc ⟨x.tid, x.gor, e⟩ ?_ h5
    refine (List.mem_filter.mp (show _ ∈ w.of x.tid from ?_)).1
    rw [hl, h3]
    exact List.mem_append_left _ (List.mem_append_right _ (List.mem_map.mpr ⟨e, he, rfl⟩))

theorem received_monitor {E : Env} {w : World} (h : Reachable E w) {x : Rec} (hx : x ∈ w.trace) {b : Bytes} (hs : received? x.ev = some b) :
    x.tid = 2 := by
  obtain ⟨h1, h2⟩ := Role.reach h x hx
  obtain ⟨i, g, o, r⟩ := x
  cases o <;> simp [received?] at hs
  have : g = .monitorLoop := by simpa [Role.role] using h2
  subst this
  exact h1.2.2.mp rfl

theorem filterMap_of {α : Type} (f : Ev → Option α) {l : List Rec} {i : Nat} (h : ∀ x ∈ l, ∀ a, f x.ev = some a → x.tid = i) :
    ((l.filter fun x => x.tid == i).map Rec.ev).filterMap f = l.filterMap fun x => f x.ev := by
  induction l with
  | nil => rfl
  | cons x l ih =>
    have ih := ih fun y hy => h y (.tail _ hy)
    by_cases hx : x.tid = i
    · rw [List.filter_cons_of_pos (by simp [hx]), List.map_cons, List.filterMap_cons, List.filterMap_cons, ih]
    · rw [List.filter_cons_of_neg (by simp [hx]), ih, List.filterMap_cons]
      cases hf : f x.ev with
      | none => rfl
      | some a => exact absurd (h x (.head _) a hf) hx

theorem puts_last {E : Env} {w : World} (h : Reachable E w) (hc : ∀ x ∈ w.trace, x.ev.op ≠ .closeEst) {i : Nat} {g : Gor} {hist : List Ev}
    {n : Nat} {k : Resp (.read n) → Prog (Option Gor)} (ht : w.threads[i]? = some ⟨g, hist, .op (.read n) k⟩) :
    (w.trace.filterMap fun x => put? x.ev).length = (receives w.trace).length + 1 ∧
      (w.trace.filterMap fun x => put? x.ev).getLast? = some (stateAfter (receives w.trace)) := by
  have h1 := (waiting_balanced h ht).2
  rw [World.of, filterMap_of put? fun x hx a ha => put_monitor h hc hx ha,
    filterMap_of received? fun x hx a ha => received_monitor h hx ha] at h1
  refine ⟨h1, ?_⟩
  have h2 := last_put h
  rw [c46_settled h hc ht] at h2
  cases hg : (w.trace.filterMap fun x => put? x.ev).getLast? with
  | none =>
    rw [List.getLast?_eq_none_iff] at hg
    rw [hg] at h1; cases h1
  | some s => rw [hg] at h2; rw [h2]; rfl

/-- The states set are those that the datagrams received so far ask for, one after the other. -/
theorem puts_waiting {E : Env} {w : World} (h : Reachable E w) (hc : ∀ x ∈ w.trace, x.ev.op ≠ .closeEst) {i : Nat} {g : Gor} {hist : List Ev}
    {n : Nat} {k : Resp (.read n) → Prog (Option Gor)} (ht : w.threads[i]? = some ⟨g, hist, .op (.read n) k⟩) :
    (w.trace.filterMap fun x => put? x.ev) =
      (List.range ((receives w.trace).length + 1)).map fun k => stateAfter ((receives w.trace).take k) := by
  generalize hlen : (receives w.trace).length = len
  induction len generalizing w i g hist n k with
  | zero =>
    obtain ⟨h1, h2⟩ := puts_last h hc ht
    rw [hlen] at h1
    obtain ⟨s, hs⟩ := List.length_eq_one_iff.mp h1
    rw [hs] at h2 ⊢
    have h3 : receives w.trace = [] := List.eq_nil_of_length_eq_zero hlen
    simp only [List.getLast?_singleton, Option.some.injEq] at h2
    simp [List.range_succ, h2, h3]
  | succ len ih =>
    obtain ⟨h1, h2⟩ := puts_last h hc ht
    have hne : receives w.trace ≠ [] := by intro h; rw [h] at hlen; cases hlen
    have hsplit := (List.dropLast_concat_getLast hne).symm
    generalize (receives w.trace).dropLast = rs, (receives w.trace).getLast hne = raw at hsplit
    have hl : rs.length = len := by rw [hsplit, List.length_append, List.length_singleton] at hlen; omega
    obtain ⟨l₃, l₅, hw, h3, h4⟩ := List.filterMap_eq_append_iff.mp (show w.trace.filterMap (fun x => received? x.ev) = rs ++ [raw] from hsplit)
    obtain ⟨l₄, x, l₆, rfl, h5, h6, h7⟩ := List.filterMap_eq_cons_iff.mp h4
    rw [← List.append_assoc] at hw
    have h8 : receives (l₃ ++ l₄) = rs := by
      rw [receives, List.filterMap_append, h3, List.filterMap_eq_nil_iff.mpr h5, List.append_nil]
    rcases h.at hw with ⟨w₀, sh', k', hist', h₀, h9, ht₀, -⟩ | ⟨w₀, sh', ⟨_, _, oy, ry⟩, h₀, ⟨-, hy⟩ | ⟨-, hy⟩⟩
    · obtain ⟨j, g', o, r⟩ := x
      cases o <;> simp only [received?, reduceCtorEq] at h6
      have := ih h₀ (fun x hx => hc x (by rw [hw, ← h9]; exact List.mem_append_left _ hx)) ht₀ (by rw [h9, h8, hl])
      rw [h9, h8] at this
      rw [hsplit, hw, List.filterMap_append, this] at h1 h2
      rw [hsplit, hw, List.filterMap_append, this, List.range_succ (n := len + 1), List.map_append, List.map_singleton]
      generalize List.filterMap (fun x => put? x.ev) (⟨j, g', ⟨.read _, r⟩⟩ :: l₆) = q at h1 h2 ⊢
      have hq : q.length = 1 := by simpa [hl] using h1
      obtain ⟨s, rfl⟩ := List.length_eq_one_iff.mp hq
      have hs : s = stateAfter (rs ++ [raw]) := by simpa using h2
      have e1 : (rs ++ [raw]).take (len + 1) = rs ++ [raw] := List.take_of_length_le (by simp [hl])
      rw [e1, hs]
      congr 1
      refine List.map_congr_left fun k hk => ?_
      have := List.mem_range.mp hk
      rw [List.take_append_of_le_length (by omega)]
    · obtain ⟨j, g', o, r⟩ := x
      cases o <;> simp only [received?, reduceCtorEq] at h6
      cases hy
    · obtain ⟨j, g', o, r⟩ := x
      cases o <;> simp only [received?, reduceCtorEq] at h6
      cases hy

/-- ASP Up and ASP Active. -/
def _root_.M3.Spec.isRequest (d : List UInt8) : Bool := octets d = (3, 1) ∨ octets d = (4, 1)

theorem own_requests {E : Env} {w : World} (h : Reachable E w) :
    ((ownSends w.trace).map Sent.bytes).filter isRequest = ((w.of 2).map Rec.ev).filterMap asked? := by
  have h1 : ∀ x ∈ w.trace, (if ofUser x.gor then none else (sent? x.ev).bind fun s => if isRequest s.bytes then some s.bytes else none) =
      if x.tid = 2 then asked? x.ev else none := by
    intro x hx
    cases hs : sent? x.ev with
    | none => simp [asked?, hs]
    | some s =>
      have hm := c71_sender h hx hs
      obtain ⟨⟨-, -, h2⟩, -⟩ := Role.reach h x hx
      simp only [asked?, hs, Option.bind_some]
      cases hg : x.gor <;> rw [hg] at hm h2 <;> simp only [mayCarry] at hm <;> simp only [Role.cl, true_iff, reduceCtorEq, false_iff] at h2
      · rw [if_pos h2]
        rcases hm with hm | ⟨-, hm | hm⟩ <;> simp [ofUser, isRequest, hm]
      · rw [if_neg h2]; simp [ofUser, isRequest, hm]
      · rw [if_neg h2]
        split at hm <;> first | exact hm.elim | simp [ofUser, isRequest, hm]
      · rw [if_neg h2]; simp [ofUser]
  rw [ownSends, sends, World.of]
  generalize w.trace = l at h1
  induction l with
  | nil => rfl
  | cons x l ih =>
    have ih := ih fun y hy => h1 y (.tail _ hy)
    have h2 := h1 x (.head _)
    have e1 : ∀ l' : List Rec, (((l'.filter fun x => decide (¬ ofUser x.gor = true)).filterMap fun x => sent? x.ev).map Sent.bytes).filter isRequest =
        l'.filterMap fun x => if ofUser x.gor then none else (sent? x.ev).bind fun s => if isRequest s.bytes then some s.bytes else none := by
      intro l'
      induction l' with
      | nil => rfl
      | cons y l' ih =>
        rw [List.filterMap_cons, ← ih]
        cases hu : ofUser y.gor <;> cases hs : sent? y.ev <;> simp [List.filter_cons, hu, hs, List.filterMap_cons]
        split <;> simp
    have e2 : ∀ l' : List Rec, ((l'.filter fun x => x.tid == 2).map Rec.ev).filterMap asked? =
        l'.filterMap fun x => if x.tid = 2 then asked? x.ev else none := by
      intro l'
      induction l' with
      | nil => rfl
      | cons y l' ih =>
        rw [List.filterMap_cons, ← ih]
        by_cases hy : y.tid = 2 <;> simp [List.filter_cons, hy, List.filterMap_cons]
    rw [e1, e2] at ih ⊢
    rw [List.filterMap_cons, List.filterMap_cons, h2, ih]

/-- C102: what a client asks for is determined by what it has received. When it waits for a datagram and nobody has closed the connection, it has
sent, in this order, one request for each of the states that it was in before the first datagram and after each datagram, unless that
state was AspActive: ASP Up in AspDown and ASP Active in AspInactive, whatever the datagram was. A server asks for nothing. -/
theorem c102_requests {E : Env} {w : World} (h : Reachable E w) (hc : ∀ x ∈ w.trace, x.ev.op ≠ .closeEst) {i : Nat} {g : Gor} {hist : List Ev}
    {n : Nat} {k : Resp (.read n) → Prog (Option Gor)} (ht : w.threads[i]? = some ⟨g, hist, .op (.read n) k⟩) :
    ((ownSends w.trace).map Sent.bytes).filter isRequest =
      (List.range ((receives w.trace).length + 1)).filterMap fun k => request E.cfg E.mode (stateAfter ((receives w.trace).take k)) := by
  rw [own_requests h, (waiting_balanced h ht).1, World.of, filterMap_of put? fun x hx a ha => put_monitor h hc hx ha, puts_waiting h hc ht,
    List.filterMap_map]
  rfl

/-- Executable: goroutine `i` is about to read. -/
def readingB (w : World) (i : Nat) : Bool :=
  match w.threads[i]? with
  | some ⟨_, _, .op (.read _) _⟩ => true
  | _ => false

theorem readingB_sound {w : World} {i : Nat} (h : readingB w i = true) :
    ∃ (g : Gor) (hist : List Ev) (n : Nat) (k : Resp (.read n) → Prog (Option Gor)), w.threads[i]? = some ⟨g, hist, .op (.read n) k⟩ := by
  unfold readingB at h
  split at h
  · rename_i g hist n k ht; exact ⟨g, hist, n, k, ht⟩
  · cases h

/-- An Error message: "refused - management blocking". -/
def managementBlocking : Bytes := message 1 0 0 [[0, 12, 0, 8, 0, 0, 0, 13]]

/-- For `c102_requests` and `c102_received`: the peer accepts ASP Up and answers ASP Active with an Error message, twice: the client has asked three times, at once each time. -/
example : ∃ w, Reachable E₀ w ∧ (∀ x ∈ w.trace, x.ev.op ≠ .closeEst) ∧
    (∃ (g : Gor) (hist : List Ev) (n : Nat) (k : Resp (.read n) → Prog (Option Gor)), w.threads[2]? = some ⟨g, hist, .op (.read n) k⟩) ∧
    receives w.trace = [message 1 3 4 [], managementBlocking, managementBlocking] ∧
    ((ownSends w.trace).map Sent.bytes).filter isRequest = [message 1 3 1 [], message 1 4 1 [], message 1 4 1 [], message 1 4 1 []] := by
  obtain ⟨w, h1, h2⟩ := reach_of (E := E₀) (cs := boot .client ++ [.deliver (message 1 3 4 [])] ++ go 2 2 ++ [.loop 2] ++ go 4 3 ++ [.sync 4 2] ++
      go 2 6 ++ [.deliver managementBlocking] ++ go 2 2 ++ [.loop 2] ++ go 5 3 ++ [.sync 5 2] ++ go 2 6 ++
      [.deliver managementBlocking] ++ go 2 2 ++ [.loop 2] ++ go 6 3 ++ [.sync 6 2] ++ go 2 6)
    (f := fun w => (w.trace.all fun x => decide (x.ev.op ≠ .closeEst), readingB w 2, receives w.trace,
      ((ownSends w.trace).map Sent.bytes).filter isRequest))
    (v := (true, true, [message 1 3 4 [], managementBlocking, managementBlocking],
      [message 1 3 1 [], message 1 4 1 [], message 1 4 1 [], message 1 4 1 []])) (by kernel_rfl)
  simp only [Prod.mk.injEq, List.all_eq_true, decide_eq_true_eq] at h2
  obtain ⟨h2, h3, h4, h5⟩ := h2
  exact ⟨w, h1, h2, readingB_sound h3, h4, h5⟩

/-- C102: the same in a trace: whatever is received next, the requests for the states before have been sent. -/
theorem c102_received {E : Env} {w : World} (h : Reachable E w) {l₁ l₂ : List Rec} {x : Rec} {raw : Bytes} (hl : w.trace = l₁ ++ x :: l₂)
    (hx : received? x.ev = some raw) (hc : ∀ x ∈ l₁, x.ev.op ≠ .closeEst) :
    ((ownSends l₁).map Sent.bytes).filter isRequest =
      (List.range ((receives l₁).length + 1)).filterMap fun k => request E.cfg E.mode (stateAfter ((receives l₁).take k)) := by
  obtain ⟨j, g', o, r⟩ := x
  cases o <;> simp only [received?, reduceCtorEq] at hx
  rcases h.at hl with ⟨w₀, sh', k', hist', h₀, rfl, ht₀, -⟩ | ⟨w₀, sh', ⟨_, _, oy, ry⟩, h₀, ⟨-, hy⟩ | ⟨-, hy⟩⟩
  · exact c102_requests h₀ hc ht₀
  · cases hy
  · cases hy

/-! ### Two endpoints -/

/-- Whatever happens from now on, the state stays AspActive, nobody can look at it, nothing is received and the connection cannot be closed. -/
def _root_.M3.Spec.Hung (E : Env) (w : World) : Prop :=
  ∀ w', Steps E w w' → w'.sh.st = .active ∧ ∃ l, w'.trace = w.trace ++ l ∧ ∀ x ∈ l, free x.ev.op = true

/-- Executable: the monitor is about to notify `Dial` / `Accept`. -/
def notifyingB (w : World) : Bool :=
  match w.threads[2]? with
  | some (⟨.monitorLoop, _, .op .sendEst _⟩ : Thread) => true
  | _ => false

theorem hung_of {E : Env} {w : World} (h : Reachable E w) (h1 : w.sh.handed = true) (h2 : w.sh.st = .active) (h3 : notifyingB w = true) :
    Hung E w := by
  unfold notifyingB at h3
  split at h3
  · rename_i hist k ht
    intro w' hs
    obtain ⟨-, h4, h5⟩ := Blocked.steps h ⟨ht, handed_decided h h1⟩ hs
    exact ⟨h4.trans h2, h5⟩
  · cases h3

/-- The user of the client sends ASP Inactive. -/
def suspend : List LChoice :=
  shake ++ onA ([.call (.writeSignal (.aspInactive (Msg.AspInactive.new none none)))] ++ go 6 3) ++
  .toB 0 :: onB (go 2 2 ++ [.loop 2] ++ go 6 4 ++ [.sync 6 2] ++ go 2 4) ++
  .toA 0 :: onA (go 2 2 ++ [.loop 2] ++ go 7 2 ++ [.sync 7 2] ++ go 2 6) ++
  .toB 0 :: onB (go 2 2 ++ [.loop 2] ++ go 7 4 ++ [.sync 7 2] ++ go 2 3) ++
  .toA 0 :: onA (go 2 2 ++ [.loop 2] ++ go 8 2 ++ [.sync 8 2] ++ go 2 3)

/-- C102: a user who wants to suspend traffic hangs both ends. A client and a server of this library have completed the handshake, and the
client's user sends ASP Inactive with `WriteSignal`, as RFC 4666, 4.3.4.4 provides. The server acknowledges it; the client, being inactive,
asks for ASP Active at once; the server acknowledges that, too, and both ends hang. -/
theorem c102_suspend : ∃ p, Link.Reachable E₀ { E₀ with mode := .server } p ∧
    (p.a.threads.drop 6).head?.map (fun t => (t.gor, t.hist.filterMap returned?)) =
      some (.api (.writeSignal (.aspInactive (Msg.AspInactive.new none none))), [.wrote 8]) ∧
    receives p.b.trace = [message 1 3 1 [], message 1 4 1 [], message 1 4 2 [], message 1 4 1 []] ∧
    receives p.a.trace = [message 1 3 4 [], message 1 4 3 [], message 1 4 4 [], message 1 4 3 []] ∧
    complaints p.a.trace = [] ∧ complaints p.b.trace = [] ∧ Hung E₀ p.a ∧ Hung { E₀ with mode := .server } p.b := by
  obtain ⟨p, h1, h2⟩ := link_of (Ea := E₀) (Eb := { E₀ with mode := .server }) (cs := suspend) (f := fun p =>
      ((p.a.threads.drop 6).head?.map (fun t => (t.gor, t.hist.filterMap returned?)), receives p.b.trace, receives p.a.trace, complaints p.a.trace, complaints p.b.trace,
        (p.a.sh.handed, p.a.sh.st, notifyingB p.a), (p.b.sh.handed, p.b.sh.st, notifyingB p.b)))
    (v := (some (.api (.writeSignal (.aspInactive (Msg.AspInactive.new none none))), [.wrote 8]), [message 1 3 1 [], message 1 4 1 [], message 1 4 2 [], message 1 4 1 []],
      [message 1 3 4 [], message 1 4 3 [], message 1 4 4 [], message 1 4 3 []], [], [], (true, .active, true), (true, .active, true)))
    (by kernel_rfl)
  simp only [Prod.mk.injEq] at h2
  obtain ⟨h2, h3, h4, h5, h6, ⟨a1, a2, a3⟩, b1, b2, b3⟩ := h2
  exact ⟨p, h1, h2, h3, h4, h5, h6, hung_of h1.ends.1 a1 a2 a3, hung_of h1.ends.2 b1 b2 b3⟩

end M3.Conn
