import Verif.Lemmas.Conn.Est
import Verif.Props.Conn.Causes
import Verif.Props.Conn.Closing
import Verif.Props.Conn.Monitor
import Verif.Props.Conn.Remains
import Verif.Props.Conn.Deaf

/- Why a connection is closed: C105. -/

set_option autoImplicit false
set_option linter.unusedSimpArgs false

namespace M3.Spec

open M3.Conn

/-- A DATA message whose Protocol Data is too short for a routing label. -/
def spoilt (raw : List UInt8) : Bool :=
  match M3UA.parse raw with
  | .ok (.data m) => raw.getD 0 0 = 1 && match m.protocolData with
    | some p => decide (p.data.length < 12)
    | none => false
  | _ => false

/-- The reasons to close a connection: a call of `Close`; the context is found cancelled; the time of `Dial` or `Accept` is over; the acknowledgement of
a heartbeat is late; there are no random numbers; reading from the association fails; writing to it fails; a spoilt DATA message. -/
inductive Cause where
  | call | cancelled | timeout | expired | random | read | write | spoilt
  deriving DecidableEq

/-- The reason that `x` is, after what happened `before`. A failure of an association that the library has closed is none, nor is a failure to write what the
user wants to write, or ASP Up or ASP Active. -/
def cause? (before : List Rec) (x : Rec) : Option Cause :=
  if x.gor = .api .close then some .call else
  match x.ev with
  | ⟨.monSelect, .ctx⟩ => some .cancelled
  | ⟨.estSelect, .timeout⟩ => some .timeout
  | ⟨.ackSelect, .timer⟩ => some .expired
  | ⟨.rand, none⟩ => some .random
  | ⟨.read _, none⟩ => if before.any (·.ev.op = .sctpClose) then none else some .read
  | ⟨.write d _, none⟩ =>
    if ofUser x.gor || octets d = (3, 1) || octets d = (4, 1) || before.any (·.ev.op = .sctpClose) then none else some .write
  | ⟨.read _, some raw⟩ => if spoilt raw then some .spoilt else none
  | _ => none

/-- The reasons in `l`, after what happened `before`. -/
def causesFrom : List Rec → List Rec → List Cause
  | _, [] => []
  | before, x :: l => (cause? before x).toList ++ causesFrom (before ++ [x]) l

/-- The reasons to close the connection that there were so far. -/
def reasons (l : List Rec) : List Cause := causesFrom [] l

/-- The library closes the association, or the channels of the connection. -/
def closing (x : Rec) : Prop := x.ev.op = .sctpClose ∨ x.ev.op = .closeEst

end M3.Spec

namespace M3.Conn

open Spec

namespace Ended

def Spoilt (raw : Bytes) : Prop :=
  ∃ m p, M3UA.parse raw = .ok (.data m) ∧ raw.getD 0 0 = 1 ∧ m.protocolData = some p ∧ p.data.length < 12

def reason (before : List Rec) (x : Rec) : Prop :=
  x.gor = .api .close ∨ match x.ev with
  | ⟨.monSelect, .ctx⟩ => True
  | ⟨.estSelect, .timeout⟩ => True
  | ⟨.ackSelect, .timer⟩ => True
  | ⟨.rand, none⟩ => True
  | ⟨.read _, none⟩ => ¬ shut before
  | ⟨.write d _, none⟩ => ofUser x.gor = false ∧ octets d ≠ (3, 1) ∧ octets d ≠ (4, 1) ∧ ¬ shut before
  | ⟨.read _, some raw⟩ => Spoilt raw
  | _ => False

def Reason (l : List Rec) : Prop := ∃ a x b, l = a ++ x :: b ∧ reason a x

theorem reason_cause {a : List Rec} {x : Rec} (h : reason a x) : cause? a x ≠ none := by
  have hs : ¬ shut a → a.any (·.ev.op = .sctpClose) = false := fun hn => by
    rw [List.any_eq_false]
    exact fun x hx ho => hn ⟨x, hx, by simpa using ho⟩
  obtain ⟨i, g, o, r⟩ := x
  rcases h with rfl | h
  · simp [cause?]
  · unfold cause?
    split
    · simp
    · split at h
      all_goals simp_all
      obtain ⟨m, p, h1, h2, h3, h4⟩ := h
      simp [spoilt, h1, h3, h4]
      simpa using h2

theorem causesFrom_append (before l m : List Rec) : causesFrom before (l ++ m) = causesFrom before l ++ causesFrom (before ++ l) m := by
  induction l generalizing before with
  | nil => simp [causesFrom]
  | cons x l ih => rw [List.cons_append, causesFrom, ih, causesFrom]; simp

theorem causes_reason {l : List Rec} (h : Reason l) : reasons l ≠ [] := by
  obtain ⟨a, x, b, rfl, h⟩ := h
  have := reason_cause h
  rw [reasons, causesFrom_append, causesFrom, List.nil_append]
  cases hc : cause? a x with
  | none => exact (this hc).elim
  | some c => simp

theorem Reason.mono {l : List Rec} (m : List Rec) (h : Reason l) : Reason (l ++ m) := by
  obtain ⟨a, x, b, rfl, h⟩ := h
  exact ⟨a, x, b ++ m, by simp, h⟩

/-- Reading or writing has failed. -/
def failed : Ev → Bool
  | ⟨.read _, none⟩ => true
  | _ => false

/-- What makes the monitor close the connection. -/
def trigger (E : Env) : List Ev → Prop
  | ⟨.monSelect, .ctx⟩ :: _ => True
  | ⟨.monSelect, .err e⟩ :: rest => match reply E e, rest with
    | none, _ => True
    | some _, ⟨.info, _⟩ :: ⟨.write d _, none⟩ :: _ => octets d = (0, 0)
    | _, _ => False
  | ⟨.monSelect, .state _⟩ :: rest => rest.any failed = true
  | _ => False

def Trigger (E : Env) (s : List Ev) (o : Op) : Prop :=
  match o with
  | .sctpClose | .closeEst => trigger E s
  | _ => True

theorem monitor_code (E : Env) : WP (Hist (Trigger E)) .monitorLoop (fun _ _ => True) [] (body E .monitorLoop) := by
  obtain ⟨mode, cfg, hb, ms⟩ := E
  cases mode <;> wp_code [Hist.ok_eq, Hist.may_eq, Hist.next_eq, Facts.may, List.nil_append, List.append_assoc, List.cons_append, Trigger, trigger] <;>
    simp [List.any, failed]
  all_goals exact ⟨fun e => ⟨fun h => by simp [h], fun m h => by simp [h, reply_oct h]⟩, nofun, nofun⟩

theorem main_code (E : Env) : WP (Hist fun s o => o = .sctpClose → ⟨.estSelect, .timeout⟩ ∈ s ∨ ⟨.estSelect, .closed⟩ ∈ s) .main (fun _ _ => True) []
    (body E .main) := by
  wp_code [Hist.ok_eq, Hist.may_eq, Hist.next_eq, List.nil_append, List.append_assoc, List.cons_append]
  simp

theorem reason_of {l : List Rec} {x : Rec} (hx : x ∈ l) (h : ∀ a b, l = a ++ x :: b → reason a x) : Reason l := by
  obtain ⟨a, b, rfl⟩ := List.append_of_mem hx
  exact ⟨a, x, b, rfl, h a b rfl⟩

theorem of_split {w : World} {l₁ l₂ : List Rec} {x : Rec} (hl : w.trace = l₁ ++ x :: l₂) :
    w.of x.tid = l₁.filter (·.tid == x.tid) ++ x :: l₂.filter (·.tid == x.tid) := by
  rw [World.of, hl, List.filter_append, List.filter_cons_of_pos (by simp)]

/-- The monitor picks up an error that somebody has just reported. -/
theorem reported {E : Env} {w : World} (h : Reachable E w) {l₁ l₂ : List Rec} {i : Nat} {g : Gor} {e : CErr}
    (hl : w.trace = l₁ ++ ⟨i, g, .monSelect, .err e⟩ :: l₂) :
    ∃ a z, l₁ = a ++ [z] ∧ z.ev = ⟨.sendErr e, ()⟩ := by
  rcases h.at hl with ⟨w₀, sh', k, hist, h₀, rfl, ht, he⟩ | ⟨w₀, sh', ⟨j, g', oy, ry⟩, h₀, ⟨rfl, hy⟩ | ⟨rfl, hy⟩⟩
  · cases he
  · cases hy
  · cases hy
    exact ⟨_, _, rfl, rfl⟩

theorem receives_mem {l : List Rec} {raw : Bytes} (h : raw ∈ receives l) : ∃ i g n, (⟨i, g, .read n, some raw⟩ : Rec) ∈ l := by
  obtain ⟨x, hx, h1⟩ := List.mem_filterMap.mp h
  obtain ⟨i, g, o, r⟩ := x
  cases o <;> simp only [received?, reduceCtorEq] at h1
  exact ⟨i, g, _, h1 ▸ hx⟩

/-- The reason for the first closing is a reason for all. -/
theorem closed {E : Env} {w : World} (h : Reachable E w) {l₁ l₂ : List Rec} {x : Rec} (hl : w.trace = l₁ ++ x :: l₂) (hx : closing x) :
    Reason (l₁ ++ [x]) := by
  generalize hn : l₁.length = n
  induction n using Nat.strongRecOn generalizing l₁ l₂ x with
  | ind n ih =>
  -- a closing before
  have earlier : ∀ {a b : List Rec} {y : Rec}, l₁ = a ++ b → y ∈ a → closing y → Reason (l₁ ++ [x]) := by
    intro a b y hab hy hc
    obtain ⟨a₁, a₂, rfl⟩ := List.append_of_mem hy
    have := ih a₁.length (by subst hn hab; simp) (l₂ := a₂ ++ b ++ x :: l₂) (by rw [hl, hab]; simp) hc rfl
    have := this.mono (a₂ ++ b ++ [x])
    rw [hab]
    simpa using this
  have inside : ∀ {y : Rec}, y ∈ l₁ → (∀ a b, l₁ = a ++ y :: b → ¬ shut a → reason a y) → Reason (l₁ ++ [x]) := by
    intro y hy hr
    obtain ⟨a, b, hab⟩ := List.append_of_mem hy
    by_cases hs : shut a
    · obtain ⟨z, hz, hc⟩ := hs
      exact earlier hab hz (.inl hc)
    · exact ⟨a, y, b ++ [x], by simp [hab], hr a b hab hs⟩
  obtain ⟨i, g, o, r⟩ := x
  obtain ⟨-, hrole⟩ := Role.reach h (⟨i, g, o, r⟩ : Rec) (by rw [hl]; simp)
  have hof := of_split hl
  have hg : g = .monitorLoop ∨ g = .api .close ∨ g = .main ∧ o = .sctpClose := by
    rcases hx with rfl | rfl <;> simp [Role.role] at hrole ⊢ <;> rcases hrole with h | h <;> simp [h]
  rcases hg with rfl | rfl | ⟨rfl, rfl⟩
  · obtain ⟨pre, h₁, hpre, hP⟩ := Hist.iter h hof (monitor_code E)
    have hmem : ∀ e ∈ h₁, (⟨i, .monitorLoop, e⟩ : Rec) ∈ l₁ := fun e he => by
      have : (⟨i, .monitorLoop, e⟩ : Rec) ∈ l₁.filter (·.tid == i) := by
        rw [hpre]; exact List.mem_append_right _ (List.mem_map.mpr ⟨e, he, rfl⟩)
      exact (List.mem_filter.mp this).1
    replace hP : trigger E h₁ := by rcases hx with rfl | rfl <;> exact hP
    unfold trigger at hP
    split at hP
    · exact inside (hmem _ (.head _)) fun a b hab hs => .inr trivial
    · rename_i e rest
      split at hP
      · rename_i hr
        obtain ⟨c, b, hab⟩ := List.append_of_mem (hmem _ (.head _))
        obtain ⟨a, z, rfl, hz⟩ := reported h (hl.trans (by rw [hab, List.append_assoc, List.cons_append]))
        have hzl : w.trace = a ++ z :: (⟨i, .monitorLoop, .monSelect, .err e⟩ :: b ++ ⟨i, .monitorLoop, o, r⟩ :: l₂) := by rw [hl, hab]; simp
        have hal : ∀ y ∈ a, y ∈ l₁ := fun y hy => by rw [hab]; simp [hy]
        obtain ⟨j, g, z⟩ := z
        obtain rfl : z = ⟨.sendErr e, ()⟩ := hz
        have hjf := of_split hzl
        obtain ⟨pre', h₂, hpre', hw⟩ := Hist.iter h hjf (why E g)
        have hlast : ∀ y, h₂.getLast? = some y → (⟨j, g, y⟩ : Rec) ∈ l₁ := fun y hy => hal _ (by
          have : (⟨j, g, y⟩ : Rec) ∈ a.filter (·.tid == j) := by
            rw [hpre']; exact List.mem_append_right _ (List.mem_map.mpr ⟨y, List.mem_of_getLast? hy, rfl⟩)
          exact (List.mem_filter.mp this).1)
        have hsrc := Flow.source h hzl
        obtain ⟨-, hzr⟩ := Role.reach h (⟨j, g, .sendErr e, ()⟩ : Rec) (by rw [hzl]; simp)
        have hB : Because (receives a) h₂.getLast? e := by
          cases g with
          | packet raw => exact Because.mono (by simpa [Flow.Src, Flow.key] using hsrc) hw
          | data m =>
            obtain ⟨raw, h1, h2, h3⟩ := hsrc
            exact Because.mono (by simpa using h1) (hw raw h2 h3)
          | _ => exact Because.mono (by simp) hw
        have hwrite : ∀ d inf, h₂.getLast? = some ⟨.write d inf, none⟩ → Reason (l₁ ++ [⟨i, .monitorLoop, o, r⟩]) := fun d inf hd => by
          have hm := hlast _ hd
          have hs := c71_sender h (x := ⟨j, g, .write d inf, none⟩) (by rw [hl]; exact List.mem_append_left _ hm) rfl
          refine inside hm fun _ _ _ hs' => .inr ?_
          cases g with
          | packet raw =>
            simp only [mayCarry] at hs
            split at hs <;> first | exact hs.elim | exact ⟨rfl, by simp [hs], by simp [hs], hs'⟩
          | data m => simp [mayCarry] at hs
          | beatLoop =>
            simp only [mayCarry] at hs
            exact ⟨rfl, by simp [hs], by simp [hs], hs'⟩
          | _ => simp [Role.role, Role.cl] at hzr
        cases e <;> simp only [Because, reply, reduceCtorEq] at hB hr
        · exact inside (hlast _ hB) fun _ _ _ _ => .inr trivial
        · obtain ⟨raw, h1, h2⟩ := hB
          obtain ⟨_, _, _, h3⟩ := receives_mem h1
          exact inside (hal _ h3) fun _ _ _ _ => .inr h2
        · obtain ⟨d, inf, hd⟩ := hB
          exact hwrite d inf hd
        · obtain ⟨d, inf, hd⟩ := hB
          exact hwrite d inf hd
        · exact inside (hlast _ hB) fun _ _ _ _ => .inr trivial
      · rename_i d inf _ _
        exact inside (hmem ⟨.write d inf, none⟩ (by simp)) fun a b hab hs => .inr ⟨rfl, by simp [hP], by simp [hP], hs⟩
      · exact hP.elim
    · rename_i s rest
      obtain ⟨e, he, hf⟩ := List.any_eq_true.mp hP
      refine inside (hmem e (.tail _ he)) fun a b hab hs => .inr ?_
      obtain ⟨o', r'⟩ := e
      cases o' <;> simp only [failed, Bool.false_eq_true] at hf
      cases r' <;> simp at hf
      exact hs
    · exact hP.elim
  · exact ⟨l₁, _, [], rfl, .inl rfl⟩
  · obtain ⟨pre, h₁, hpre, hP⟩ := Hist.iter h hof (main_code E)
    have hmem : ∀ e ∈ h₁, (⟨i, .main, e⟩ : Rec) ∈ l₁ := fun e he => by
      have : (⟨i, .main, e⟩ : Rec) ∈ l₁.filter (·.tid == i) := by
        rw [hpre]; exact List.mem_append_right _ (List.mem_map.mpr ⟨e, he, rfl⟩)
      exact (List.mem_filter.mp this).1
    rcases hP rfl with h1 | h1
    · exact inside (hmem _ h1) fun a b hab hs => .inr trivial
    · obtain ⟨a, b, hab⟩ := List.append_of_mem (hmem _ h1)
      have hl' : w.trace = a ++ ⟨i, .main, .estSelect, .closed⟩ :: (b ++ ⟨i, .main, .sctpClose, r⟩ :: l₂) := by rw [hl, hab]; simp
      rcases h.at hl' with ⟨w₀, sh', k, hist, h₀, rfl, ht, he⟩ | ⟨w₀, sh', ⟨j, g', oy, ry⟩, h₀, ⟨-, hy⟩ | ⟨-, hy⟩⟩
      · cases he with
        | estClosedRecv hc =>
          obtain ⟨ss, -, hi⟩ := Est.reach h₀
          obtain ⟨y, hy, hc⟩ := hi.closed hc
          exact earlier hab hy (.inr hc)
      · cases hy
      · cases hy

theorem closed_shut {E : Env} {w : World} (h : Reachable E w) (hs : w.sh.sctpClosed = true) : shut w.trace := by
  have more : ∀ {l m : List Rec}, shut l → shut (l ++ m) := fun ⟨x, hx, ho⟩ => ⟨x, List.mem_append_left _ hx, ho⟩
  induction h with
  | refl => cases hs
  | tail _ hst ih =>
    cases hst with
    | env _ he => cases he <;> exact ih hs
    | call c => exact ih hs
    | loop => exact ih hs
    | crash => exact ih hs
    | run i g hist o k r _ ht hx =>
      cases hx <;> first
        | exact more (ih hs)
        | exact ⟨_, List.mem_append_right _ (.head _), rfl⟩
    | sync i j gi gj hi hj oi oj ki kj ri rj _ hij hti htj hx =>
      cases hx <;> exact more (ih hs)

end Ended

/-- C105: whenever the library closes an association or the channels of a connection, there was a reason: one of those of `Cause`. There are no others. -/
theorem c105_why {E : Env} {w : World} (h : Reachable E w) {l₁ l₂ : List Rec} {x : Rec} (hl : w.trace = l₁ ++ x :: l₂) (hx : closing x) :
    reasons (l₁ ++ [x]) ≠ [] :=
  Ended.causes_reason (Ended.closed h hl hx)

/-- C105: so as long as there was no reason, the association is open, nothing was closed, and the monitor runs. -/
theorem c105_open {E : Env} {w : World} (h : Reachable E w) (hr : reasons w.trace = []) :
    w.sh.sctpClosed = false ∧ w.sh.estClosed = false ∧ (∀ x ∈ w.trace, ¬ closing x) ∧ ¬ ended w := by
  have hc : ∀ x ∈ w.trace, ¬ closing x := fun x hx hc => by
    obtain ⟨a, b, hab⟩ := List.append_of_mem hx
    have := (Ended.closed h hab hc).mono b
    rw [List.append_assoc, List.singleton_append, ← hab] at this
    exact Ended.causes_reason this hr
  have hs : w.sh.sctpClosed = false := by
    cases hs : w.sh.sctpClosed with
    | false => rfl
    | true =>
      obtain ⟨x, hx, ho⟩ := Ended.closed_shut h hs
      exact (hc x hx (.inl ho)).elim
  refine ⟨hs, Est.notClosed h fun x hx ho => hc x hx (.inr ho), hc, fun he => ?_⟩
  have := (c90_down h he).2
  rw [hs] at this; cases this

namespace Ended

/-- A DATA message with four octets of Protocol Data. -/
def short : Bytes := message 1 1 1 [tlv 0x210 [1, 2, 3, 4]]

/-- How a connection comes to be closed for a given reason. -/
def course (m : Mode) : Cause → List Choice
  | .call => opening m ++ [.call .close] ++ go 5 9
  | .cancelled => opening m ++ [.deliver ackMsg] ++ go 2 2 ++ [.loop 2, .cancel] ++ go 2 9
  | .timeout => [.run 0 .timer] ++ go 0 2
  | .expired => openingBeatOf m ++ go 3 1 ++ beat (List.replicate 128 7) ++ [.run 3 .timer, .deliver ackMsg] ++ go 2 2 ++ [.loop 2, .sync 3 2] ++ go 2 8
  | .random => openingBeatOf m ++ go 3 1 ++ [.loop 3, .run 3 .fail, .deliver ackMsg] ++ go 2 2 ++ [.loop 2, .sync 3 2] ++ go 2 8
  | .read => opening m ++ [.run 2 .fail] ++ go 2 8
  | .write => opening m ++ [.deliver ackMsg] ++ go 2 2 ++ [.loop 2] ++ go 5 2 ++ [.sync 5 2] ++ go 2 1 ++ [.run 2 .fail] ++ go 2 8
  | .spoilt => opening m ++ [.deliver short] ++ go 2 2 ++ [.loop 2] ++ go 5 2 ++ go 6 1 ++ [.sync 6 2] ++ go 2 8

end Ended

/-- C105: each of these reasons is needed: whatever the configuration (with heartbeats), a connection can be closed for this reason and no other. -/
theorem c105_each (E : Env) (he : E.hb.enabled = true) (c : Cause) : ∃ w, Reachable E w ∧ w.sh.sctpClosed = true ∧ (∃ x ∈ w.trace, closing x) ∧
    c ∈ reasons w.trace ∧ ∀ c' ∈ reasons w.trace, c' = c := by
  have h : (play (body' E) (init E) (Ended.course E.mode c)).map (fun w => (w.sh.sctpClosed, w.trace.any fun x => x.ev.op = .sctpClose,
      (reasons w.trace).contains c, (reasons w.trace).all fun c' => c' = c)) = some (true, true, true, true) := by
    obtain ⟨mode, cfg, ⟨en, a, b, d⟩, ms⟩ := E
    simp only at he
    subst he
    cases mode <;> cases c <;> kernel_rfl
  obtain ⟨w, hw, h2⟩ := reach_of h
  simp only [Prod.mk.injEq, List.any_eq_true, List.all_eq_true, decide_eq_true_eq, List.contains_iff_mem] at h2
  obtain ⟨h2, ⟨x, hx, ho⟩, h3, h4⟩ := h2
  exact ⟨w, hw, h2, ⟨x, hx, .inl ho⟩, h3, h4⟩

/-- For `c105_open`: a client's ASP Up could not be sent. That is no reason: the client waits for a datagram, and will never ask again unless one arrives. -/
example : ∃ w, Reachable E₀ w ∧ reasons w.trace = [] ∧ w.reading 2 ∧ w.sh.inbox = [] ∧
    (sends w.trace).map (fun s => (octets s.bytes, s.answer)) = [((3, 1), none)] := by
  obtain ⟨w, h1, h2⟩ := reach_of (E := E₀) (cs := go 2 1 ++ [.loop 2, .sync 1 2] ++ go 2 4 ++ [.run 2 .fail] ++ go 2 1)
    (f := fun w => (reasons w.trace, w.reads, w.sh.inbox, (sends w.trace).map (fun s => (octets s.bytes, s.answer))))
    (v := ([], true, [], [((3, 1), none)])) (by kernel_rfl)
  simp only [Prod.mk.injEq] at h2
  exact ⟨w, h1, h2.1, World.reads_reading h2.2.1, h2.2.2⟩

end M3.Conn
