import Verif.Props.Conn.Crash
import Verif.Props.Conn.EndToEnd
import Verif.Props.Conn.Ended
import Verif.Props.Conn.Halt
import Verif.Props.Conn.State
import Verif.Props.Conn.Transcript

/- Whatever signalling a connection gets, it can be answered as C103 says: C103. -/

set_option autoImplicit false
set_option linter.unusedSimpArgs false

namespace M3.Spec

open M3.Conn

/-- A datagram that a connection can deal with: it is short enough, it can be parsed, its version is 1, and it is neither DATA nor a Heartbeat Ack. -/
structure Mild (raw : List UInt8) : Prop where
  short : raw.length ≤ 1500
  usable : ¬ Unusable raw
  data : meaning raw ≠ some .data
  ack : meaning raw ≠ some .heartbeatAck

/-- Once the state has left AspActive, it does not become AspActive again. -/
def Once (rs : List (List UInt8)) : Prop :=
  ∀ a b c, a <+: b → b <+: c → c <+: rs → stateAfter a = .active → stateAfter b ≠ .active → stateAfter c ≠ .active

end M3.Spec

namespace M3.Conn

open Spec

namespace Realized

theorem local_of_own {E : Env} {w w' : World} (h : Own E w w') : Local E w w' := by
  refine ⟨h.step, fun d hd => ?_⟩
  cases h with
  | run i g h o k r h1 h2 h3 h4 => simpa [World.deliver] using congrArg (fun w => w.trace.length) hd
  | sync i j gi gj hi hj oi oj ki kj ri rj h1 h2 h3 h4 h5 => simpa [World.deliver] using congrArg (fun w => w.trace.length) hd
  | loop i g g' h h1 h2 => simpa [World.deliver] using congrArg (fun w => w.sh.inbox.length) hd
  | crash i g h o k h1 h2 h3 => simpa [World.deliver] using congrArg (fun w => w.sh.inbox.length) hd

theorem exec_ctx {sh sh' : Shared} {o : Op} {r : Resp o} (h : Exec sh o r sh') : sh'.ctxDone = sh.ctxDone := by
  cases h <;> rfl

theorem own_ctx {E : Env} {w w' : World} (h : Own E w w') : w'.sh.ctxDone = w.sh.ctxDone := by
  cases h with
  | run i g h o k r h1 h2 h3 h4 => exact exec_ctx h3
  | sync i j gi gj hi hj oi oj ki kj ri rj h1 h2 h3 h4 h5 => cases h5 <;> rfl
  | _ => rfl

/-- An entry of the trace was made by a goroutine that was waiting to do so, and this led to the present. -/
theorem when {E : Env} {w : World} (h : Reachable E w) {l₁ l₂ : List Rec} {x : Rec} (hl : w.trace = l₁ ++ x :: l₂) :
    ∃ (w₀ : World) (l₃ : List Rec) (k : Resp x.ev.op → Prog (Option Gor)) (hist : List Ev), Reachable E w₀ ∧ Steps E w₀ w ∧
      l₁ = w₀.trace ++ l₃ ∧ receives l₃ = [] ∧ w₀.threads[x.tid]? = some ⟨x.gor, hist, .op x.ev.op k⟩ := by
  rw [Reachable] at h
  generalize hi : M3.Conn.init E = w' at h
  induction h generalizing l₂ with
  | refl =>
    subst hi
    have : (M3.Conn.init E).trace = [] := rfl
    rw [this] at hl
    simp at hl
  | @tail a c hab hs ih =>
    subst hi
    have hs' := hs
    have old : ∀ t, a.trace = l₁ ++ x :: t → ∃ (w₀ : World) (l₃ : List Rec) (k : Resp x.ev.op → Prog (Option Gor)) (hist : List Ev), Reachable E w₀ ∧
        Steps E w₀ c ∧ l₁ = w₀.trace ++ l₃ ∧ receives l₃ = [] ∧ w₀.threads[x.tid]? = some ⟨x.gor, hist, .op x.ev.op k⟩ := fun t ht => by
      obtain ⟨w₀, l₃, k, hist, h1, h2, h3⟩ := ih ht
      exact ⟨w₀, l₃, k, hist, h1, .tail h2 hs', h3⟩
    cases hs with
    | env => exact old _ hl
    | call => exact old _ hl
    | loop => exact old _ hl
    | crash => exact old _ hl
    | run i g hist o k r _ ht hx =>
      rcases split_append hl with ⟨c, h1, -⟩ | ⟨c, h1, h2⟩
      · exact old _ h1
      · rcases c with _ | ⟨y, c⟩
        · simp only [List.nil_append, List.cons.injEq] at h2
          obtain ⟨rfl, -⟩ := h2
          exact ⟨a, [], k, hist, hab, .tail (.refl _) hs', by simpa using h1, rfl, ht⟩
        · simp at h2
    | sync i j gi gj hi hj oi oj ki kj ri rj _ _ hti htj hx =>
      rcases split_append hl with ⟨c, h1, -⟩ | ⟨c, h1, h2⟩
      · exact old _ h1
      · rcases c with _ | ⟨y, _ | ⟨z, c⟩⟩
        · simp only [List.nil_append, List.cons.injEq] at h2
          obtain ⟨rfl, -⟩ := h2
          exact ⟨a, [], ki, hi, hab, .tail (.refl _) hs', by simpa using h1, rfl, hti⟩
        · simp only [List.cons_append, List.nil_append, List.cons.injEq] at h2
          obtain ⟨rfl, rfl, -⟩ := h2
          exact ⟨a, [⟨i, gi, oi, ri⟩], kj, hj, hab, .tail (.refl _) hs', h1, by cases hx <;> rfl, htj⟩
        · simp at h2

/-- `Dial` or `Accept` was told, and nothing was received since. -/
def owed (h : List Ev) : Bool := h.foldl (fun b e => match e with
  | ⟨.sendEst, _⟩ => true
  | ⟨.read _, some _⟩ => false
  | _ => b) false

theorem owed_append {a b : List Ev} (ha : owed a = false) : owed (a ++ b) = owed b := by
  unfold owed at ha ⊢
  rw [List.foldl_append, ha]

theorem owed_after {a b : List Ev} {u : Resp .sendEst} (h : owed (a ++ ⟨.sendEst, u⟩ :: b) = false) : b.filterMap received? ≠ [] := by
  intro hb
  unfold owed at h
  rw [List.foldl_append, List.foldl_cons] at h
  simp only at h
  suffices ∀ l : List Ev, l.filterMap received? = [] → l.foldl (fun b e => match e with
      | ⟨.sendEst, _⟩ => true
      | ⟨.read _, some _⟩ => false
      | _ => b) true = true by rw [this b hb] at h; cases h
  intro l
  induction l with
  | nil => exact fun _ => rfl
  | cons e l ih =>
    intro hl
    rw [List.filterMap_cons] at hl
    obtain ⟨o, r⟩ := e
    rw [List.foldl_cons]
    cases o <;> simp only [received?] at hl ⊢ <;> try exact ih hl
    case read n =>
      cases r with
      | none => exact ih hl
      | some raw => cases hl

/-- What has to be shown of the code of the monitor. -/
def Telling (s : List Ev) (o : Op) : Prop :=
  match o with
  | .sendEst => match s with
    | [⟨.monSelect, _⟩, ⟨.lock, _⟩, ⟨.getSt, p⟩, ⟨.putSt .active, _⟩] => p ≠ .active
    | _ => False
  | _ => True

theorem telling (E : Env) : WP (Hist Telling) .monitorLoop (fun s r => r = some .monitorLoop → owed s = false) [] (body E .monitorLoop) := by
  obtain ⟨mode, cfg, hb, ms⟩ := E
  cases mode <;>
  wp_code [Hist.ok_eq, Hist.may_eq, Hist.next_eq, Telling, Facts.may, List.nil_append, List.append_assoc, List.cons_append] <;>
  simp +contextual [owed]
  all_goals exact fun _ _ _ h1 h2 => h1 h2.symm

theorem owed_trail {E : Env} {i : Nat} {pre : List Rec} {g : Gor} (h : Trail E i pre g) (hg : Role.cl g = .monitor)
    (hr : Hist.Real (pre.map Rec.ev)) : owed (pre.map Rec.ev) = false := by
  induction h with
  | nil => rfl
  | @snoc pre g g' h ht hp ih =>
    have hc : Role.cl g = .monitor := by
      have := same_class hp
      rwa [hg, eq_comm] at this
    rw [List.map_append, List.map_map, show Rec.ev ∘ (fun e => (⟨i, g, e⟩ : Rec)) = id from rfl, List.map_id] at hr ⊢
    rw [owed_append (ih hc fun e he => hr e (List.mem_append_left _ he))]
    have hr := fun e he => hr e (List.mem_append_right _ he)
    cases g <;> simp only [Role.cl, reduceCtorEq] at hc
    · have := Hist.path (monitor_none E) hr hp
      simp only [List.nil_append] at this
      subst this
      rfl
    · have := Hist.path (telling E) hr hp
      rw [List.nil_append] at this
      have hg' : g' = .monitorLoop := by
        have := loops hp
        cases g' <;> simp_all [Gor.once, Role.cl]
      exact this (by rw [hg'])

/-- Whoever is about to tell `Dial` or `Accept` is the monitor, and the datagrams received ask for AspActive. -/
theorem telling_at {E : Env} {w : World} (h : Reachable E w) (hc : ∀ x ∈ w.trace, x.ev.op ≠ .closeEst) {i : Nat} {g : Gor} {hist : List Ev}
    {k : Resp .sendEst → Prog (Option Gor)} (ht : w.threads[i]? = some ⟨g, hist, .op .sendEst k⟩) :
    i = 2 ∧ g = .monitorLoop ∧ stateAfter (receives w.trace) = .active := by
  obtain ⟨h1, h2⟩ := Role.pending h ht
  have hg : g = .monitorLoop := by simpa [Role.role] using h2
  subst hg
  refine ⟨h1.2.2.mp rfl, rfl, ?_⟩
  obtain ⟨ss, hl, hi⟩ := Fold.reach h
  obtain ⟨s, hs⟩ := getElem?_some_of_length hl.1 ht
  have hok : s = .applied .active := (wp_op.mp (hl.2 i _ s ht hs)).1
  have hf := hi.fact (Est.notClosed h hc) i s hs
  rw [hok] at hf
  have hf : w.sh.st = stateAfter (receives w.trace) := hf
  obtain ⟨ss', hl', hi'⟩ := Lock.reach h
  obtain ⟨s', hs'⟩ := getElem?_some_of_length hl'.1 ht
  have hok' := (wp_op.mp (hl'.2 i _ s' ht hs')).1
  have hm : s'.ph = .must := hok'.1.2
  have hst := hi'.known i s' hs'
  rw [hm] at hst
  exact hf.symm.trans hst

theorem filter_split {α : Type} {p : α → Bool} {l A B : List α} {x : α} (h : l.filter p = A ++ x :: B) :
    ∃ l₁ l₂, l = l₁ ++ x :: l₂ ∧ l₁.filter p = A ∧ l₂.filter p = B := by
  obtain ⟨l₁, l₂, rfl, h1, h2⟩ := List.filter_eq_append_iff.mp h
  obtain ⟨l₃, l₄, rfl, h3, h4, h5⟩ := List.filter_eq_cons_iff.mp h2
  refine ⟨l₁ ++ l₃, l₄, by simp, ?_, h5⟩
  rw [List.filter_append, h1, List.filter_eq_nil_iff.mpr h3, List.append_nil]

/-- The monitor tells `Dial` or `Accept` a second time only because the state has become AspActive again. -/
theorem again {E : Env} {w : World} (h : Reachable E w) (hc : ∀ x ∈ w.trace, x.ev.op ≠ .closeEst) {i : Nat} {g : Gor} {hist : List Ev}
    {k : Resp .sendEst → Prog (Option Gor)} (ht : w.threads[i]? = some ⟨g, hist, .op .sendEst k⟩) {x : Rec} (hx : x ∈ w.trace)
    (hxo : x.ev.op = .sendEst) : ¬ Once (receives w.trace) := by
  obtain ⟨rfl, rfl, hact⟩ := telling_at h hc ht
  obtain ⟨hp, pre, ho, htr⟩ := (Follows.reach h).2 2 _ ht
  have hr := Hist.real_of h 2
  simp only at hp ho htr
  rw [ho, List.map_append, List.map_map, show Rec.ev ∘ (fun e => (⟨2, .monitorLoop, e⟩ : Rec)) = id from rfl, List.map_id] at hr
  have howed := owed_trail htr rfl fun e he => hr e (List.mem_append_left _ he)
  have hw := Hist.now (telling E) (fun e he => hr e (List.mem_append_right _ he)) hp
  have htell : Telling hist .sendEst := (wp_op.mp hw).1
  obtain ⟨e1, e2, p, u, rfl, hne⟩ : ∃ (e1 : Resp .monSelect) (e2 : Resp .lock) (p : Resp .getSt) (u : Resp (.putSt .active)),
      hist = [⟨.monSelect, e1⟩, ⟨.lock, e2⟩, ⟨.getSt, p⟩, ⟨.putSt .active, u⟩] ∧ p ≠ .active := by
    simp only [Telling] at htell
    split at htell
    · exact ⟨_, _, _, _, rfl, htell⟩
    · cases htell
  have hrec : ∀ l : List Rec, (∀ y ∈ l, y ∈ w.trace) → receives l = ((l.filter fun x => x.tid == 2).map Rec.ev).filterMap received? := fun l hl =>
    (filterMap_of received? fun y hy a ha => received_monitor h (hl y hy) ha).symm
  -- before the state was set
  obtain ⟨l₁, l₂, hz, hz1, hz2⟩ := filter_split (l := w.trace) (p := fun x => x.tid == 2) (A := pre ++ [⟨2, .monitorLoop, .monSelect, e1⟩, ⟨2, .monitorLoop, .lock, e2⟩])
    (x := ⟨2, .monitorLoop, .getSt, p⟩) (B := [⟨2, .monitorLoop, .putSt .active, u⟩]) (by rw [show w.trace.filter _ = _ from ho]; simp)
  have hR : receives w.trace = receives l₁ := by
    have h2 : receives l₂ = [] := by
      rw [hrec l₂ fun y hy => by rw [hz]; exact List.mem_append_right _ (List.mem_cons_of_mem _ hy), hz2]; rfl
    rw [hz, Fold.receives_append, show receives (_ :: l₂) = receives l₂ from rfl, h2, List.append_nil]
  obtain ⟨rs, raw, hrs, hst⟩ : ∃ rs raw, receives w.trace = rs ++ [raw] ∧ stateAfter rs ≠ .active := by
    rcases h.at hz with ⟨w₀, sh', k', hist', h₀, rfl, -, hex⟩ | ⟨w₀, sh', ⟨_, _, oy, ry⟩, h₀, ⟨-, hy⟩ | ⟨-, hy⟩⟩
    · have hpst : p = w₀.sh.st := by cases hex; rfl
      rcases c46_state h₀ (fun y hy => hc y (by rw [hz]; exact List.mem_append_left _ hy)) with h1 | ⟨rs, raw, h1, h2⟩
      · rw [← hR, hact, ← hpst] at h1
        exact (hne h1).elim
      · exact ⟨rs, raw, hR.trans h1, by rw [← h2, ← hpst]; exact hne⟩
    · cases hy
    · cases hy
  -- when it was told the first time
  have hx2 : x.tid = 2 := by
    obtain ⟨h1, h2⟩ := Role.reach h x hx
    rw [hxo] at h2
    have hg : x.gor = .monitorLoop := by simpa [Role.role] using h2
    rw [hg] at h1
    exact h1.2.2.mp rfl
  have hxp : x ∈ pre := by
    have : x ∈ w.of 2 := List.mem_filter.mpr ⟨hx, by simp [hx2]⟩
    rw [ho] at this
    rcases List.mem_append.mp this with h1 | h1
    · exact h1
    · simp only [List.map_cons, List.map_nil, List.mem_cons, List.not_mem_nil, or_false] at h1
      rcases h1 with rfl | rfl | rfl | rfl <;> cases hxo
  obtain ⟨a, b, rfl⟩ := List.append_of_mem hxp
  obtain ⟨m₁, m₂, hm, hm1, hm2⟩ := filter_split (l := w.trace) (p := fun x => x.tid == 2) (A := a) (x := x) (B := b ++ _)
    (by rw [show w.trace.filter _ = _ from ho, List.append_assoc]; rfl)
  have hmr : receives m₂ ≠ [] := by
    rw [hrec m₂ fun y hy => by rw [hm]; exact List.mem_append_right _ (List.mem_cons_of_mem _ hy), hm2, List.map_append, List.filterMap_append]
    intro hnil
    obtain ⟨j, gx, o, rr⟩ := x
    simp only at hxo
    subst hxo
    rw [List.map_append, List.map_cons] at howed
    exact owed_after howed (List.append_eq_nil_iff.mp hnil).1
  have hma : stateAfter (receives m₁) = .active := by
    obtain ⟨w₀, l₃, k₀, hist₀, h₀, -, h1, h2, ht₀⟩ := when h hm
    obtain ⟨j, gx, o, rr⟩ := x
    simp only at hxo
    subst hxo
    have := (telling_at h₀ (fun y hy => hc y (by rw [hm, h1]; simp [hy])) ht₀).2.2
    rw [h1, receives, List.filterMap_append, show List.filterMap _ l₃ = [] from h2, List.append_nil]
    exact this
  have hsum : receives w.trace = receives m₁ ++ receives m₂ := by
    obtain ⟨j, gx, o, rr⟩ := x
    simp only at hxo
    subst hxo
    rw [hm, receives, List.filterMap_append, List.filterMap_cons]
    rfl
  have hpre : receives m₁ <+: rs := by
    rw [hrs] at hsum
    have := congrArg List.dropLast hsum
    rw [List.dropLast_concat, List.dropLast_append_of_ne_nil hmr] at this
    exact ⟨_, this.symm⟩
  intro hon
  exact hon _ _ _ hpre (List.prefix_append rs [raw]) (by rw [hrs]; exact List.prefix_rfl) hma hst (by rw [← hrs]; exact hact)

/-- When `Dial` or `Accept` returns. -/
theorem returning (E : Env) : WP (Hist fun s o => match o with
    | .opened .conn => ⟨.estSelect, .ok⟩ ∈ s
    | .opened .timeout => ⟨.estSelect, .timeout⟩ ∈ s
    | _ => True) .main (fun _ _ => True) [] (body E .main) := by
  wp_code [Hist.ok_eq, Hist.may_eq, Hist.next_eq, List.nil_append, List.append_assoc, List.cons_append]
  simp

/-- Without a reason to close the connection, whoever is not waiting any more was told. -/
theorem told {E : Env} {w : World} (h : Reachable E w) (hr : reasons w.trace = [])
    (hd : ∃ x ∈ w.trace, x.ev = ⟨.opened .conn, ()⟩ ∨ x.ev = ⟨.opened .timeout, ()⟩) : ∃ x ∈ w.trace, x.ev.op = .sendEst := by
  obtain ⟨⟨i, g, o, r⟩, hx, ho⟩ := hd
  obtain ⟨-, hrole⟩ := Role.reach h _ hx
  have hg : g = .main := by rcases ho with ho | ho <;> cases ho <;> simpa [Role.role] using hrole
  subst hg
  obtain ⟨l₁, l₂, hl⟩ := List.append_of_mem hx
  have hof := Ended.of_split hl
  obtain ⟨pre, h₁, hpre, hP⟩ := Hist.iter h hof (returning E)
  have hmem : ∀ e ∈ h₁, (⟨i, .main, e⟩ : Rec) ∈ w.trace := fun e he => by
    have : (⟨i, .main, e⟩ : Rec) ∈ l₁.filter (·.tid == i) := by
      rw [hpre]; exact List.mem_append_right _ (List.mem_map.mpr ⟨e, he, rfl⟩)
    rw [hl]
    exact List.mem_append_left _ (List.mem_filter.mp this).1
  rcases ho with ho | ho <;> cases ho
  · obtain ⟨a, b, hab⟩ := List.append_of_mem (hmem _ hP)
    rcases h.at hab with ⟨w₀, sh', k', hist', h₀, rfl, -, hex⟩ | ⟨w₀, sh', ⟨j, g', oy, ry⟩, h₀, ⟨-, hy⟩ | ⟨hy', hy⟩⟩
    · cases hex
    · cases hy
    · cases hy
      exact ⟨⟨j, g', .sendEst, ()⟩, by rw [hab, ← hy']; simp, rfl⟩
  · exact (Ended.causes_reason (Ended.reason_of (hmem _ hP) fun a b _ => .inr trivial) hr).elim

theorem spoilt_data {raw : Bytes} (h : spoilt raw = true) : meaning raw = some .data := by
  unfold spoilt at h
  split at h
  · rename_i m hp
    have h0 : raw.getD 0 0 = 1 := by
      have := (Bool.and_eq_true _ _ ▸ h).1
      exact of_decide_eq_true this
    simp only [meaning, hp, h0, if_true]
    rfl
  · cases h

/-- What stays as it is while the connection works through `rs`. -/
structure Inv (E : Env) (rs : List Bytes) (w : World) : Prop where
  reach : Reachable E w
  ctx : w.sh.ctxDone = false
  all : receives w.trace ++ w.sh.inbox = rs
  reasons : reasons w.trace = []
  calls : userCalls w = 0

theorem Inv.step {E : Env} {rs : List Bytes} (hrs : ∀ raw ∈ rs, Mild raw) {w w' : World} (h : Inv E rs w) (hs : Own E w w') : Inv E rs w' := by
  have hr' : Reachable E w' := .tail h.reach hs.step
  have hall : receives w'.trace ++ w'.sh.inbox = rs :=
    (local_inbox h.reach (local_of_own hs) fun d hd => (hrs d (h.all ▸ List.mem_append_right _ hd)).short).trans h.all
  have hcalls := (Halt.own_calls h.reach hs).trans h.calls
  refine ⟨hr', (own_ctx hs).trans h.ctx, hall, ?_, hcalls⟩
  obtain ⟨hop, -, -, -⟩ := c105_open h.reach h.reasons
  have huser : ∀ (i : Nat) (t : Thread), w.threads[i]? = some t → ofUser t.gor = false := fun i t ht => by
    have h0 := List.countP_eq_zero.mp h.calls t.gor (List.mem_map_of_mem (List.mem_of_getElem? ht))
    simpa using h0
  have hclose : ∀ (i : Nat) (t : Thread), w.threads[i]? = some t → t.gor ≠ .api .close := fun i t ht hg => by
    have := huser i t ht
    rw [hg] at this
    cases this
  have hc0 := h.reasons
  rw [Spec.reasons] at hc0 ⊢
  cases hs with
  | run i g hist o k r h1 h2 h3 h4 =>
    show causesFrom [] (w.trace ++ [_]) = []
    rw [Ended.causesFrom_append, hc0, List.nil_append, List.nil_append, causesFrom, causesFrom, List.append_nil]
    have hg := hclose i _ h2
    simp only at hg
    have hm : ∀ raw, received? (⟨o, r⟩ : Ev) = some raw → Mild raw := fun raw hx => by
      refine hrs raw (hall ▸ List.mem_append_left _ ?_)
      show raw ∈ receives (w.trace ++ [_])
      simp [receives, hx]
    have hctx := h.ctx
    have hsp : ∀ raw, received? (⟨o, r⟩ : Ev) = some raw → spoilt raw = false := fun raw hx => by
      cases hb : spoilt raw with
      | false => rfl
      | true => exact ((hm raw hx).data (spoilt_data hb)).elim
    clear hall hm hrs hr' hcalls huser hclose h hc0
    cases h3
    all_goals simp_all [cause?, foreign]
    all_goals exact hsp _ rfl
  | sync i j gi gj hi hj oi oj ki kj ri rj h1 h2 h3 h4 h5 =>
    show causesFrom [] (w.trace ++ [_, _]) = []
    have hg := hclose i _ h3
    have hg' := hclose j _ h4
    simp only at hg hg'
    rw [Ended.causesFrom_append, hc0, List.nil_append, List.nil_append, causesFrom, causesFrom, causesFrom, List.append_nil]
    cases h5 <;> simp [cause?, hg, hg']
  | loop i g g' hist h1 h2 => exact hc0
  | crash i g hist o k h1 h2 h3 => exact hc0

theorem Inv.run {E : Env} {rs : List Bytes} (hrs : ∀ raw ∈ rs, Mild raw) {n : Nat} {w w' : World} (h : Inv E rs w) (hs : OwnRun E n w w') : Inv E rs w' := by
  induction hs with
  | refl => exact h
  | tail _ hs ih => exact (ih h).step hrs hs

theorem _root_.M3.Spec.Once.prefix {rs rs' : List Bytes} (h : Once rs) (hp : rs' <+: rs) : Once rs' :=
  fun a b c h1 h2 h3 => h a b c h1 h2 (h3.trans hp)

/-- Left alone, the connection gets to wait for more. -/
theorem Inv.settles {E : Env} {rs : List Bytes} (hrs : ∀ raw ∈ rs, Mild raw) (hon : Once rs) {w : World} (h : Inv E rs w) : ∃ n w', OwnRun E n w w' ∧ Inv E rs w' ∧ Listening w' := by
  obtain ⟨n, w', h1, h2⟩ := c89_settles h.reach
  have h' := h.run hrs h1
  have hsub : ∀ raw ∈ receives w'.trace, Mild raw := fun raw hm => hrs raw (h'.all ▸ List.mem_append_left _ hm)
  obtain ⟨hopen, -, hno, hend⟩ := c105_open h'.reach h'.reasons
  have hest : ∀ x ∈ w'.trace, x.ev.op ≠ .closeEst := fun x hx ho => hno x hx (.inr ho)
  refine ⟨n, w', h1, h', ?_⟩
  rcases h2 with h2 | h2 | h2 | h2 | h2
  · exfalso
    rcases c56_causes h'.reach h2 with ⟨raw, h3, h4 | h4⟩ | ⟨-, t, h3, c, h4, -⟩ | ⟨x, h3, h4⟩
    · exact (hsub raw h3).data h4.1
    · exact (hsub raw h3).ack h4.1
    · have := List.countP_eq_zero.mp h'.calls t.gor (List.mem_map_of_mem h3)
      rw [h4] at this
      exact this rfl
    · exact hest x h3 h4
  · exact h2
  · obtain ⟨raw, h3, h4⟩ := h2.cause
    have := hsub raw (List.mem_of_getLast? h3)
    rcases h4 with h4 | h4
    · exact (this.usable h4).elim
    · exact (this.ack h4.1).elim
  · obtain ⟨x, hx, hxo⟩ := told h'.reach h'.reasons h2.cause
    obtain ⟨i, ⟨g, hist, p⟩, k, ht, hp⟩ := h2.sends
    simp only at hp
    subst hp
    exact (again h'.reach hest ht hx hxo (hon.prefix ⟨_, h'.all⟩)).elim
  · have := h2.sctp
    rw [hopen] at this
    cases this

/-- Datagrams arrive. -/
theorem Inv.deliver {E : Env} {rs more : List Bytes} {w : World} (h : Inv E rs w) (hc : w.sh.crashed = false) :
    ∃ w', Steps E w w' ∧ Inv E (rs ++ more) w' := by
  induction more generalizing rs w with
  | nil => exact ⟨w, .refl w, by rwa [List.append_nil]⟩
  | cons d more ih =>
    have hs := World.deliver_step (E := E) d hc
    have h1 : Inv E (rs ++ [d]) (w.deliver d) := by
      refine ⟨.tail h.reach hs, h.ctx, ?_, h.reasons, h.calls⟩
      show receives w.trace ++ (w.sh.inbox ++ [d]) = rs ++ [d]
      rw [← List.append_assoc, h.all]
    obtain ⟨w', h2, h3⟩ := ih h1 hc
    exact ⟨w', Steps.trans (.tail (.refl w) hs) h2, by simpa using h3⟩

/-- Who reads is the monitor. -/
theorem reader {E : Env} {w : World} (h : Reachable E w) {i : Nat} {g : Gor} {hist : List Ev} {n : Nat} {k : Resp (.read n) → Prog (Option Gor)}
    (ht : w.threads[i]? = some ⟨g, hist, .op (.read n) k⟩) : i = 2 := by
  obtain ⟨h1, h2⟩ := Role.pending h ht
  have hg : g = .monitorLoop := by simpa [Role.role] using h2
  subst hg
  exact h1.2.2.mp rfl

/-- Whenever a connection waits for a datagram, it has waited after each of the datagrams received before. -/
theorem back {E : Env} {w : World} (h : Reachable E w) {i : Nat} {g : Gor} {hist : List Ev} {n : Nat} {k : Resp (.read n) → Prog (Option Gor)}
    (ht : w.threads[i]? = some ⟨g, hist, .op (.read n) k⟩) {a : List Bytes} (ha : a <+: receives w.trace) :
    ∃ (w' : World) (i : Nat) (g : Gor) (n : Nat) (hist : List Ev) (k : Resp (.read n) → Prog (Option Gor)), Reachable E w' ∧ Steps E w' w ∧
      w'.threads[i]? = some ⟨g, hist, .op (.read n) k⟩ ∧ receives w'.trace = a := by
  obtain ⟨b, hb⟩ := ha
  cases b with
  | nil => exact ⟨w, i, g, n, hist, k, h, .refl w, ht, by rw [← hb, List.append_nil]⟩
  | cons raw b =>
    obtain ⟨l₃, l₅, hw, h3, h4⟩ := List.filterMap_eq_append_iff.mp (show w.trace.filterMap (fun x => received? x.ev) = a ++ raw :: b from hb.symm)
    obtain ⟨l₄, x, l₆, rfl, h5, h6, h7⟩ := List.filterMap_eq_cons_iff.mp h4
    rw [← List.append_assoc] at hw
    have h8 : receives (l₃ ++ l₄) = a := by
      rw [receives, List.filterMap_append, h3, List.filterMap_eq_nil_iff.mpr h5, List.append_nil]
    obtain ⟨w₀, l, k₀, hist₀, h₀, hs, h1, h2, ht₀⟩ := when h hw
    obtain ⟨j, g', o, r⟩ := x
    cases o <;> simp only [received?, reduceCtorEq] at h6
    refine ⟨w₀, j, g', _, hist₀, k₀, h₀, hs, ht₀, ?_⟩
    rw [h1, Fold.receives_append, h2, List.append_nil] at h8
    exact h8

/-- The state becomes AspActive in some step. -/
theorem rises {E : Env} {w w' : World} (h : Steps E w w') (h1 : w.sh.st ≠ .active) (h2 : w'.sh.st = .active) :
    ∃ w₁ w₂, Steps E w w₁ ∧ Step E w₁ w₂ ∧ w₁.sh.st ≠ .active ∧ w₂.sh.st = .active ∧ Steps E w₂ w' := by
  induction h with
  | refl => exact (h1 h2).elim
  | @tail b c hab hs ih =>
    by_cases hb : b.sh.st = .active
    · obtain ⟨w₁, w₂, h3, h4, h5, h6, h7⟩ := ih hb
      exact ⟨w₁, w₂, h3, h4, h5, h6, .tail h7 hs⟩
    · exact ⟨b, c, hab, hs, hb, h2, .refl c⟩

theorem step_passed {E : Env} {w w' : World} (hs : Step E w w') {g : Gor} {hist : List Ev} {k : Resp .sendEst → Prog (Option Gor)}
    (h : w.threads[2]? = some ⟨g, hist, .op .sendEst k⟩ ∨ w.sh.handed = true) :
    w'.threads[2]? = some ⟨g, hist, .op .sendEst k⟩ ∨ w'.sh.handed = true := by
  rcases h with ht2 | hh
  · have hlt : 2 < w.threads.length := (List.getElem?_eq_some_iff.mp ht2).1
    cases hs with
    | env => exact .inl ht2
    | call => exact .inl (by simpa only [List.getElem?_append_left hlt] using ht2)
    | loop i g g' hist' _ ht =>
      have hne : i ≠ 2 := by rintro rfl; rw [ht2] at ht; cases ht
      exact .inl (by simp only [List.getElem?_set_ne hne]; exact ht2)
    | crash => exact .inl ht2
    | run i g hist' o k' r _ ht hx =>
      have hne : i ≠ 2 := by
        rintro rfl
        rw [ht2] at ht; cases ht
        cases hx
      exact .inl (by rw [List.getElem?_append_left (by simpa using hlt), List.getElem?_set_ne hne]; exact ht2)
    | sync i j gi gj hi' hj' oi oj ki kj ri rj _ hij hti htj hx =>
      by_cases hi2 : i = 2
      · subst hi2
        rw [ht2] at hti
        cases hti
        cases hx
        exact .inr rfl
      · have hj2 : j ≠ 2 := by
          rintro rfl
          rw [ht2] at htj
          cases htj
          cases hx
        exact .inl (by rw [List.getElem?_set_ne hj2, List.getElem?_set_ne hi2]; exact ht2)
  · right
    cases hs with
    | env _ he => cases he <;> exact hh
    | run i g hist o k r _ _ hx => cases hx <;> exact hh
    | sync i j gi gj hi' hj' oi oj ki kj ri rj _ _ _ _ hx => cases hx <;> first | exact hh | rfl
    | _ => exact hh

/-- Who has told `Dial` or `Accept` has been heard. -/
theorem passed {E : Env} {w w' : World} (h : Reachable E w) {g : Gor} {hist : List Ev} {k : Resp .sendEst → Prog (Option Gor)}
    (ht : w.threads[2]? = some ⟨g, hist, .op .sendEst k⟩) (hs : Steps E w w') {i n : Nat} {g' : Gor} {hist' : List Ev}
    {k' : Resp (.read n) → Prog (Option Gor)} (ht' : w'.threads[i]? = some ⟨g', hist', .op (.read n) k'⟩) : decided w'.trace := by
  have hr : Reachable E w' := Steps.trans h hs
  have hi := reader hr ht'
  subst hi
  suffices w'.threads[2]? = some ⟨g, hist, .op .sendEst k⟩ ∨ w'.sh.handed = true by
    rcases this with h1 | h1
    · rw [h1] at ht'
      simp at ht'
    · exact handed_decided hr h1
  clear ht' hr
  induction hs with
  | refl => exact .inl ht
  | tail _ hs ih => exact step_passed hs ih

end Realized

open Realized in
/-- C103: whatever short signalling a connection gets, as long as it does not become AspActive a second time, there is an execution in which it is all read and answered
as `c103_transcript` says and the connection waits for more, without any call of the user. -/
theorem c103_realized (E : Env) (rs : List Bytes) (hrs : ∀ raw ∈ rs, Mild raw) (hon : Once rs) {bytes : M3UA → List UInt8}
    (hbytes : ∀ m : M3UA, m.Encodes (bytes m)) :
    ∃ w, Reachable E w ∧ Listening w ∧ reasons w.trace = [] ∧ receives w.trace = rs ∧ w.sh.st = stateAfter rs ∧
      answered w.trace = transcript E.cfg bytes E.mode rs ∧ userCalls w = 0 := by
  have h0 : Inv E [] (init E) := ⟨.refl _, rfl, rfl, rfl, rfl⟩
  obtain ⟨w₁, -, h1⟩ := h0.deliver (more := rs) rfl
  rw [List.nil_append] at h1
  obtain ⟨n, w, -, h2, h3⟩ := h1.settles hrs hon
  have hrec : receives w.trace = rs := by
    have := h2.all
    rwa [h3.inbox, List.append_nil] at this
  obtain ⟨-, -, hno, -⟩ := c105_open h2.reach h2.reasons
  have hest : ∀ x ∈ w.trace, x.ev.op ≠ .closeEst := fun x hx ho => hno x hx (.inr ho)
  obtain ⟨i, ⟨g, hist, p⟩, k, ht, hp⟩ := h3.reads
  simp only at hp
  subst hp
  refine ⟨w, h2.reach, h3, h2.reasons, hrec, ?_, ?_, h2.calls⟩
  · rw [c46_settled h2.reach hest ht, hrec]
  · rw [c103_plain h2.reach hest (fun raw hr => ?_) ht hbytes, hrec]
    have := hrs raw (hrec ▸ hr)
    exact ⟨this.data, this.ack⟩

namespace Realized

theorem once_of {rs : List Bytes} (h : ∀ i ∈ List.range (rs.length + 1), ∀ j ∈ List.range (rs.length + 1), ∀ k ∈ List.range (rs.length + 1),
    ¬ (i ≤ j ∧ j ≤ k ∧ stateAfter (rs.take i) = .active ∧ stateAfter (rs.take j) ≠ .active ∧ stateAfter (rs.take k) = .active)) : Once rs := by
  intro a b c h1 h2 h3 ha' hb' hc'
  have hc := List.prefix_iff_eq_take.mp h3
  have hb := List.prefix_iff_eq_take.mp (h2.trans h3)
  have ha := List.prefix_iff_eq_take.mp ((h1.trans h2).trans h3)
  have mem {l : List Bytes} (hl : l <+: rs) : l.length ∈ List.range (rs.length + 1) := List.mem_range.mpr (Nat.lt_succ_of_le hl.length_le)
  refine h a.length (mem ((h1.trans h2).trans h3)) b.length (mem (h2.trans h3)) c.length (mem h3) ⟨h1.length_le, h2.length_le, ?_⟩
  rw [← ha, ← hb, ← hc]
  exact ⟨ha', hb', hc'⟩

theorem once_never {rs : List Bytes} (h : ∀ raw ∈ rs, effect raw ≠ some .active) : Once rs := by
  intro a _ _ h1 h2 h3 ha
  refine absurd ha ?_
  have h : ∀ raw ∈ a, effect raw ≠ some .active := fun raw hr => h raw (((h1.trans h2).trans h3).subset hr)
  clear h1 h2 h3 ha
  suffices ∀ s, s ≠ St.active → a.foldl (fun s raw => (effect raw).getD s) s ≠ .active from this _ (by decide)
  induction a with
  | nil => exact fun s hs => hs
  | cons r rs ih =>
    intro s hs
    refine ih (fun raw hm => h raw (List.mem_cons_of_mem _ hm)) _ ?_
    have := h r List.mem_cons_self
    show (effect r).getD s ≠ .active
    cases he : effect r with
    | none => exact hs
    | some t => exact fun ht => this (he.trans (congrArg some ht))

theorem mild_of {raw : Bytes} (h : raw.length ≤ 1500 ∧ meaning raw ≠ some .data ∧ meaning raw ≠ some .heartbeatAck)
    (hp : (match M3UA.parse raw with | .ok _ => decide (raw.getD 0 0 = 1) | _ => false) = true) : Mild raw := by
  refine ⟨h.1, fun hu => ?_, h.2.1, h.2.2⟩
  split at hp
  · rename_i m hm
    exact hu m hm (of_decide_eq_true hp)
  · cases hp

/-- An Error message with code 13 (refused, management blocking). -/
def blocking : Bytes := message 1 0 0 [tlv 12 (be32 13)]

theorem flatten_singles {α : Type} (n : Nat) (a : α) : (List.replicate n [a]).flatten = List.replicate n a := by
  induction n with
  | zero => rfl
  | succ n ih => rw [List.replicate_succ, List.flatten_cons, ih]; rfl

theorem blocking_mild : Mild blocking := mild_of (by decide +kernel) (by decide +kernel)

def medley : List Bytes :=
  [message 1 0 1 [], message 1 3 3 [tlv 9 [1, 2]], message 1 7 7 [], message 1 3 4 [], message 1 4 3 [], message 1 3 3 [tlv 9 [1, 2]], message 1 4 4 []]

theorem medley_mild : (∀ raw ∈ medley, Mild raw) ∧ Once medley := by
  refine ⟨fun raw hr => ?_, once_of (by decide +kernel)⟩
  simp only [medley, List.mem_cons, List.not_mem_nil, or_false] at hr
  rcases hr with rfl | rfl | rfl | rfl | rfl | rfl | rfl <;> exact mild_of (by decide +kernel) (by decide +kernel)

theorem dialogue_blocking (c : Config) (bytes : M3UA → Bytes) (m : Mode) (n : Nat) :
    dialogue c bytes m .down (List.replicate n blocking) = (List.replicate n (request c m .down).toList).flatten := by
  induction n with
  | zero => rfl
  | succ n ih =>
    have h1 : effect blocking = none := by decide +kernel
    have h2 : answers c bytes .down blocking = [] := by kernel_rfl
    rw [List.replicate_succ, List.replicate_succ, dialogue, h1, h2, Option.getD_none, ih]
    rfl

end Realized

/-- C103: and these are all: if a connection waits for more and was not closed, what it has received did not make it AspActive a second time. -/
theorem c103_once {E : Env} {w : World} (h : Reachable E w) (hc : ∀ x ∈ w.trace, x.ev.op ≠ .closeEst) (hw : w.at (.read 1500)) :
    Once (receives w.trace) := by
  obtain ⟨i, ⟨g, hist, p⟩, k, ht, hp⟩ := hw
  simp only at hp
  subst hp
  intro a b c h1 h2 h3 ha hb hcc
  obtain ⟨wc, ic, gc, nc, histc, kc, hwc, hsc, htc, hrc⟩ := Realized.back h ht h3
  obtain ⟨wb, ib, gb, nb, histb, kb, hwb, hsb, htb, hrb⟩ := Realized.back hwc htc (hrc ▸ h2)
  obtain ⟨wa, ia, ga, na, hista, ka, hwa, hsa, hta, hra⟩ := Realized.back hwb htb (hrb ▸ h1)
  have close {w' : World} (hs : Steps E w' w) : ∀ x ∈ w'.trace, x.ev.op ≠ .closeEst := fun x hx => by
    obtain ⟨l, hl⟩ := hs.trace
    exact hc x (by rw [hl]; exact List.mem_append_left _ hx)
  have hcc' := close hsc
  have hcb := close (Steps.trans hsb hsc)
  have hca := close (Steps.trans hsa (Steps.trans hsb hsc))
  have sta : wa.sh.st = .active := by rw [c46_settled hwa hca hta, hra, ha]
  have stb : wb.sh.st ≠ .active := by rw [c46_settled hwb hcb htb, hrb]; exact hb
  have stc : wc.sh.st = .active := by rw [c46_settled hwc hcc' htc, hrc, hcc]
  have hda : decided wa.trace := by
    obtain ⟨w₁, w₂, h4, h5, h6, h7, h8⟩ := Realized.rises hwa (by simp [init]) sta
    obtain ⟨hist, k, hn⟩ := notifying h4 h5 h6 h7
    exact Realized.passed (.tail h4 h5) hn h8 hta
  obtain ⟨w₁, w₂, h4, h5, h6, h7, h8⟩ := Realized.rises hsb stb stc
  have hd₁ : decided w₁.trace := by
    obtain ⟨l, hl⟩ := (Steps.trans hsa h4).trace
    rw [hl]
    exact decided.mono l hda
  obtain ⟨hist', k', hn⟩ := notifying (Steps.trans hwb h4) h5 h6 h7
  have hd₂ : decided w₂.trace := by
    obtain ⟨l, hl⟩ := h5.trace
    rw [hl]
    exact decided.mono l hd₁
  have hbl := (Blocked.steps (.tail (Steps.trans hwb h4) h5) ⟨hn, hd₂⟩ h8).1.at'
  have hi2 := Realized.reader hwc htc
  rw [hi2, hbl] at htc
  simp at htc

/-- C103: both together: a sequence of short signalling can be read to the end by a connection that is not closed and waits for more, exactly if it does
not make the connection AspActive a second time. -/
theorem c103_exact (E : Env) (rs : List Bytes) (hrs : ∀ raw ∈ rs, Mild raw) :
    (∃ w, Reachable E w ∧ Listening w ∧ (∀ x ∈ w.trace, x.ev.op ≠ .closeEst) ∧ receives w.trace = rs) ↔ Once rs := by
  constructor
  · rintro ⟨w, h1, h2, h3, rfl⟩
    exact c103_once h1 h3 h2.reads
  · intro h
    obtain ⟨w, h1, h2, h3, h4, -⟩ := c103_realized E rs hrs h M3UA.encodes_wire
    obtain ⟨-, -, hno, -⟩ := c105_open h1 h3
    exact ⟨w, h1, h2, fun x hx ho => hno x hx (.inr ho), h4⟩

/-- For `c103_exact`: after ASP Up Ack, ASP Active Ack, ASP Inactive Ack and ASP Active Ack no connection waits for more; without the last, one can. -/
example : let rs := [message 1 3 4 [], message 1 4 3 [], message 1 4 4 [], message 1 4 3 []]
    (∀ raw ∈ rs, Mild raw) ∧ ¬ Once rs ∧ Once (rs.take 3) := by
  refine ⟨fun raw hr => ?_, fun h => ?_, Realized.once_of (by decide +kernel)⟩
  · simp only [List.mem_cons, List.not_mem_nil, or_false] at hr
    rcases hr with rfl | rfl | rfl | rfl <;> exact Realized.mild_of (by decide +kernel) (by decide +kernel)
  · exact h [message 1 3 4 [], message 1 4 3 []] [message 1 3 4 [], message 1 4 3 [], message 1 4 4 []] _ (by decide +kernel) (by decide +kernel)
      (List.prefix_refl _) (by decide +kernel) (by decide +kernel) (by decide +kernel)

open Realized in
/-- C103: so a client that is refused asks again without limit and without a pause: for every `n`, it can get `n` Error messages "refused, management
blocking" and have sent `n + 1` ASP Up messages in answer, and nothing else; nothing has gone wrong. -/
theorem c103_storm (E : Env) (hm : E.mode = .client) (n : Nat) : ∃ w, Reachable E w ∧ Listening w ∧ reasons w.trace = [] ∧
    receives w.trace = List.replicate n blocking ∧ answered w.trace = List.replicate (n + 1) (message 1 3 1 (presentTlvs [tv E.cfg.aspIdentifier])) := by
  obtain ⟨w, h1, h2, h3, h4, -, h5, -⟩ := c103_realized E (List.replicate n blocking) (fun raw hr => List.eq_of_mem_replicate hr ▸ blocking_mild)
    (once_never fun raw hr => List.eq_of_mem_replicate hr ▸ by decide +kernel)
    M3UA.encodes_wire
  refine ⟨w, h1, h2, h3, h4, ?_⟩
  rw [h5, transcript, dialogue_blocking, hm, request, List.replicate_succ, Option.toList_some, List.singleton_append]
  exact congrArg _ (Realized.flatten_singles n _)

/-- For `c103_realized`: a Notify, a Heartbeat that is too early, a message of an unknown class, ASP Up Ack, ASP Active Ack, a Heartbeat and ASP Inactive
Ack, and what a client answers. -/
example : ∃ w, Reachable E₀ w ∧ Listening w ∧ w.sh.st = .inactive ∧ receives w.trace = Realized.medley ∧
    (answered w.trace).map octets = [(3, 1), (3, 1), (0, 0), (3, 1), (0, 0), (3, 1), (4, 1), (3, 6), (4, 1)] := by
  obtain ⟨w, h1, h2, -, h3, h4, h5, -⟩ := c103_realized E₀ Realized.medley Realized.medley_mild.1 Realized.medley_mild.2 M3UA.encodes_wire
  refine ⟨w, h1, h2, h4.trans (by decide +kernel), h3, ?_⟩
  rw [h5]
  kernel_rfl

end M3.Conn
