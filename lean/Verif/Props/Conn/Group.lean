import Verif.Lemmas.Conn.Group
import Verif.Props.Conn.Crash
import Verif.Props.Conn.Heartbeats

/- C93: connections that share a configuration. -/

set_option autoImplicit false
set_option linter.unusedSimpArgs false

namespace M3.Conn

open Spec

/-- **C93.** Each of the connections that share a configuration behaves as a single connection does, with somebody else storing heartbeat data now and
then. So all theorems about `Reachable` hold for each of them. -/
theorem c93_each {cfg : Config} {hb : HeartbeatInfo} {p : Group} (h : Group.Reachable cfg hb p) {k : Nat} {m : Member}
    (hk : p.conns[k]? = some m) : m.E.cfg = cfg ∧ m.E.hb = hb ∧ Reachable m.E (m.w.withBeat (p.view hb.data k)) :=
  ⟨(h.good.env m (List.mem_of_getElem? hk)).1, (h.good.env m (List.mem_of_getElem? hk)).2, h.good.each k m hk⟩

/-- **C93.** What any connection compares a Heartbeat Ack with: the data that the user has put into the configuration, as long as no connection
has stored any, and then the data that some connection which has stored its data has drawn last. -/
theorem c93_compared {cfg : Config} {hb : HeartbeatInfo} {p q : Group} (h : Group.Reachable cfg hb p) (hs : Group.Step cfg hb p q)
    {k : Nat} {m m' : Member} (hm : p.conns[k]? = some m) (hm' : q.conns[k]? = some m') {x : Rec} {b : Bytes}
    (hx : m'.w.trace = m.w.trace ++ [x]) (hb' : beat? x.ev = some b) :
    ((∀ y ∈ p.conns, noted y.w.trace = false) ∧ b = hb.data) ∨
      ∃ y ∈ p.conns, noted y.w.trace = true ∧ drawn y.w.trace = some b := by
  have G := h.good
  have hr : b = p.data hb.data := by
    cases hs with
    | start md n ha =>
      rw [List.getElem?_append_left (List.getElem?_eq_some_iff.mp hm).1, hm] at hm'
      cases hm'
      have := congrArg List.length hx
      simp at this
    | @conn i m₂ w' ha hi hs hf =>
      have hi' := (List.getElem?_eq_some_iff.mp hi).1
      by_cases hik : i = k
      · subst hik
        rw [hi] at hm; cases hm
        rw [List.getElem?_set_self hi'] at hm'; cases hm'
        have hg : ∀ {sh sh' : Shared} {r : Bytes}, Exec sh .getBeat r sh' →
            sh.beatRef = p.view hb.data i → sh.beatBuf = m.w.sh.beatBuf → r = p.data hb.data := by
          intro sh sh' r he h1 h2
          cases he
          rw [h1, h2]
          unfold Group.view
          by_cases ho : p.owner = some i
          · rw [if_pos ho]; simp only [Group.data, ho, hi]
          · rw [if_neg ho]
        simp only at hx
        cases hs with
        | env _ he =>
          have := congrArg List.length hx
          cases he <;> simp [Group.seen, World.withBeat] at this
        | call => have := congrArg List.length hx; simp [Group.seen, World.withBeat] at this
        | loop => have := congrArg List.length hx; simp [Group.seen, World.withBeat] at this
        | crash => have := congrArg List.length hx; simp [Group.seen, World.withBeat] at this
        | run j g hist o kk r _ ht he =>
          have hx : m.w.trace ++ [(⟨j, g, o, r⟩ : Rec)] = m.w.trace ++ [x] := hx
          cases List.append_cancel_left hx
          cases o <;> simp only [beat?, Option.some.injEq, reduceCtorEq] at hb'
          subst hb'
          exact hg he rfl rfl
        | sync => have := congrArg List.length hx; simp [Group.seen, World.withBeat] at this
      · rw [List.getElem?_set_ne hik, hm] at hm'
        cases hm'
        have := congrArg List.length hx
        simp at this
  cases ho : p.owner with
  | none =>
    refine .inl ⟨G.none ho, ?_⟩
    rw [hr]; simp only [Group.data, ho]
  | some j =>
    obtain ⟨y, hy⟩ : ∃ y, p.conns[j]? = some y := ⟨_, List.getElem?_eq_getElem (G.own j ho)⟩
    have hn := G.some j y ho hy
    refine .inr ⟨y, List.mem_of_getElem? hy, hn, ?_⟩
    obtain ⟨d, hd⟩ := noted_drawn (w := p.seen hb.data j y.w) (l₁ := y.w.trace) (l₂ := []) (G.each j y hy) (by simp [Group.seen, World.withBeat]) hn
    have hbuf := G.buf y (List.mem_of_getElem? hy)
    rw [hd] at hbuf ⊢
    rw [hr]
    simp only [Group.data, ho, hy, hbuf, Option.getD_some]

/-- As long as nobody has stored heartbeat data. -/
structure Group.Apart (hb : HeartbeatInfo) (p : Group) : Prop where
  each : ∀ m ∈ p.conns, Alone m.E m.w ∧ m.w.sh.beatRef = .own hb.data
  one : p.conns.countP (fun m => m.w.sh.crashed) ≤ 1

theorem Alone.ref {E : Env} {w : World} (h : Alone E w) : w.sh.beatRef = if noted w.trace then .buf else .own E.hb.data := by
  have : Pointer E w := by
    induction h with
    | init => exact ⟨rfl, rfl, fun l₁ x l₂ b hl => by cases l₁ <;> cases hl⟩
    | step _ hs ho ih => exact ih.step hs ho
  exact this.ref

theorem countP_alive {p : Group} (h : p.Alive) : p.conns.countP (fun m => m.w.sh.crashed) = 0 := by
  rw [List.countP_eq_zero]
  intro m hm
  simp [h m hm]

theorem Group.Apart.reach {cfg : Config} {hb : HeartbeatInfo} {p : Group} (h : Group.Reachable cfg hb p) (ho : p.owner = none) : p.Apart hb := by
  induction h with
  | init => exact ⟨fun _ h => absurd h List.not_mem_nil, Nat.zero_le _⟩
  | @step p q h hs ih =>
    have G := h.good
    cases hs with
    | start m n ha =>
      refine ⟨fun x hx => ?_, ?_⟩
      · rcases List.mem_append.mp hx with hx | hx
        · exact (ih ho).each x hx
        · cases List.mem_singleton.mp hx; exact ⟨.init, rfl⟩
      · rw [List.countP_append, countP_alive ha]
        simp [List.countP_cons, Conn.init]
    | @conn k m w' ha hm hs hf =>
      have hk := (List.getElem?_eq_some_iff.mp hm).1
      have hmm := List.mem_of_getElem? hm
      have ho' : p.owner = none ∧ w'.sh.beatRef ≠ .buf := by
        simp only [Group.owner'] at ho
        split at ho
        · cases ho
        · rename_i hr; exact ⟨ho, by rw [hr]; nofun⟩
      have I := ih ho'.1
      have hv : p.view hb.data k = .own hb.data := by simp [Group.view, Group.data, ho'.1]
      have hw : p.seen hb.data k m.w = m.w := by
        rw [Group.seen, hv, ← (I.each m hmm).2]; rfl
      rw [hw] at hs
      rw [hv, ← (I.each m hmm).2] at hf
      have A : Alone m.E w' := .step (I.each m hmm).1 hs hf
      refine ⟨fun x hx => ?_, ?_⟩
      · rcases List.mem_or_eq_of_mem_set hx with hx | rfl
        · exact I.each x hx
        · refine ⟨A, ?_⟩
          have hr := A.ref
          rw [(G.env m hmm).2] at hr
          show w'.sh.beatRef = _
          split at hr
          · exact absurd hr ho'.2
          · exact hr
      · show List.countP _ (p.conns.set k ⟨m.E, w'⟩) ≤ 1
        have hz := countP_alive ha
        rw [List.countP_eq_zero] at hz
        rw [List.set_eq_take_append_cons_drop, if_pos hk, List.countP_append, List.countP_cons,
          List.countP_eq_zero.mpr fun x hx => hz x (List.mem_of_mem_take hx),
          List.countP_eq_zero.mpr fun x hx => hz x (List.mem_of_mem_drop hx)]
        split <;> omega

/-- One more connection runs by itself. -/
theorem Group.Reachable.lift {cfg : Config} {hb : HeartbeatInfo} {a c : List Member} {E : Env} {w : World}
    (h : Group.Reachable cfg hb ⟨a ++ ⟨E, Conn.init E⟩ :: c, none⟩) (ha : ∀ m ∈ a ++ c, m.w.sh.crashed = false)
    (hE : E.hb = hb) (hA : Alone E w) (hn : noted w.trace = false) : Group.Reachable cfg hb ⟨a ++ ⟨E, w⟩ :: c, none⟩ := by
  induction hA with
  | init => exact h
  | @step w w' hA hs ho ih =>
    have hr := hA.ref
    have hr' := (Alone.step hA hs ho).ref
    have hn₀ : noted w.trace = false := by
      rcases (Beat.step hs ho).ref with h1 | h1
      · rw [← h1.2]; exact hn
      · rw [h1.2] at hn; cases hn
    rw [hn₀] at hr
    rw [hn] at hr'
    simp only [Bool.false_eq_true, if_false, hE] at hr hr'
    have hc : w.sh.crashed = false := by cases hs <;> assumption
    have hk : (a ++ (⟨E, w⟩ : Member) :: c)[a.length]? = some ⟨E, w⟩ := by simp
    have hv : Group.view hb.data ⟨a ++ ⟨E, w⟩ :: c, none⟩ a.length = .own hb.data := by simp [Group.view, Group.data]
    have hseen : Group.seen hb.data ⟨a ++ ⟨E, w⟩ :: c, none⟩ a.length w = w := by
      rw [Group.seen, hv, ← hr]; rfl
    have := Group.Step.conn (cfg := cfg) (hb := hb) (p := ⟨a ++ ⟨E, w⟩ :: c, none⟩) (k := a.length) (m := ⟨E, w⟩) (w' := w')
      (by
        intro x hx
        rcases List.mem_append.mp hx with hx | hx
        · exact ha x (List.mem_append_left _ hx)
        · rcases List.mem_cons.mp hx with rfl | hx
          · exact hc
          · exact ha x (List.mem_append_right _ hx))
      hk (by rw [hseen]; exact hs) (fun _ => by rw [hv]; exact hr')
    have := (ih hn₀).step this
    have e : (a ++ (⟨E, w⟩ : Member) :: c).set a.length ⟨E, w'⟩ = a ++ ⟨E, w'⟩ :: c := by simp
    rw [e, Group.owner', hr'] at this
    exact this

/-- All connections are started. -/
theorem Group.Reachable.started (cfg : Config) (hb : HeartbeatInfo) (ms : List Member) (hE : ∀ m ∈ ms, m.E.cfg = cfg ∧ m.E.hb = hb) :
    Group.Reachable cfg hb ⟨ms.map fun m => ⟨m.E, Conn.init m.E⟩, none⟩ := by
  induction hl : ms.length generalizing ms with
  | zero => cases List.eq_nil_of_length_eq_zero hl; exact .init
  | succ n ih =>
    rcases List.eq_nil_or_concat ms with rfl | ⟨l, m, rfl⟩
    · cases hl
    · rw [List.concat_eq_append] at hl hE ⊢
      have := (ih l (fun m hm => hE m (List.mem_append_left _ hm)) (by simpa using hl)).step (.start m.E.mode m.E.maxStream (by
        intro x hx
        obtain ⟨y, -, rfl⟩ := List.mem_map.mp hx
        rfl))
      have he := hE m (by simp)
      have e : m.E = ⟨m.E.mode, cfg, hb, m.E.maxStream⟩ := by
        obtain ⟨E, w⟩ := m
        obtain ⟨a, b, c, d⟩ := E
        simp only at he ⊢
        rw [he.1, he.2]
      rw [List.map_append]
      simp only [List.map_cons, List.map_nil]
      rw [e]
      exact this

/-- Those after a point have only been started. -/
theorem Group.Reachable.some {cfg : Config} {hb : HeartbeatInfo} {ms ns : List Member} (h : Group.Reachable cfg hb ⟨ms ++ ns.map fun m => ⟨m.E, Conn.init m.E⟩, none⟩)
    (hm : ∀ m ∈ ms ++ ns, m.w.sh.crashed = false) (hA : ∀ m ∈ ns, m.E.hb = hb ∧ Alone m.E m.w ∧ noted m.w.trace = false) :
    Group.Reachable cfg hb ⟨ms ++ ns, none⟩ := by
  induction ns generalizing ms with
  | nil => simpa using h
  | cons m ns ih =>
    have := Group.Reachable.lift (w := m.w) h (by
      intro x hx
      rcases List.mem_append.mp hx with hx | hx
      · exact hm x (List.mem_append_left _ hx)
      · obtain ⟨y, -, rfl⟩ := List.mem_map.mp hx; rfl) (hA m (by simp)).1 (hA m (by simp)).2.1 (hA m (by simp)).2.2
    have e : ∀ l, ms ++ m :: l = (ms ++ [m]) ++ l := by simp
    rw [e] at this hm ⊢
    exact ih this hm fun x hx => hA x (List.mem_cons_of_mem _ hx)

/-- **C93.** As long as none of them has stored heartbeat data (in particular if heartbeats are disabled: `c93_disabled`), connections that share a
configuration are independent: their joint states are exactly the combinations of states that they can reach by themselves, except that only one can have
brought the process down. -/
theorem c93_product {cfg : Config} {hb : HeartbeatInfo} {ms : List Member} (hE : ∀ m ∈ ms, m.E.cfg = cfg ∧ m.E.hb = hb)
    (hn : ∀ m ∈ ms, noted m.w.trace = false) :
    (∃ o, Group.Reachable cfg hb ⟨ms, o⟩) ↔ (∀ m ∈ ms, Alone m.E m.w) ∧ ms.countP (fun m => m.w.sh.crashed) ≤ 1 := by
  constructor
  · rintro ⟨o, h⟩
    have ho : o = none := by
      cases o with
      | none => rfl
      | some k =>
        have hk := h.good.own k rfl
        have := h.good.some k _ rfl (List.getElem?_eq_getElem hk)
        rw [hn _ (List.getElem_mem hk)] at this
        cases this
    subst ho
    have := Group.Apart.reach h rfl
    exact ⟨fun m hm => (this.each m hm).1, this.one⟩
  · rintro ⟨hA, hc⟩
    refine ⟨none, ?_⟩
    by_cases ha : ∀ m ∈ ms, m.w.sh.crashed = false
    · have := Group.Reachable.some (ms := []) (ns := ms) (.started cfg hb ms hE) ha fun m hm => ⟨(hE m hm).2, hA m hm, hn m hm⟩
      exact this
    · obtain ⟨m, hm, hcr⟩ : ∃ m ∈ ms, m.w.sh.crashed = true := by
        simpa using ha
      obtain ⟨l, r, rfl⟩ := List.append_of_mem hm
      rw [List.countP_append, List.countP_cons, if_pos hcr] at hc
      have hz : ∀ x ∈ l ++ r, x.w.sh.crashed = false := by
        intro x hx
        have h1 : l.countP (fun m => m.w.sh.crashed) = 0 := by omega
        have h2 : r.countP (fun m => m.w.sh.crashed) = 0 := by omega
        rcases List.mem_append.mp hx with hx | hx
        · simpa using List.countP_eq_zero.mp h1 x hx
        · simpa using List.countP_eq_zero.mp h2 x hx
      have mem : ∀ x ∈ l ++ r, x ∈ l ++ m :: r := by
        intro x hx
        rcases List.mem_append.mp hx with hx | hx
        · exact List.mem_append_left _ hx
        · exact List.mem_append_right _ (List.mem_cons_of_mem _ hx)
      have := Group.Reachable.some (cfg := cfg) (hb := hb) (ms := []) (ns := l ++ ⟨m.E, Conn.init m.E⟩ :: r)
        (by
          have := Group.Reachable.started cfg hb (l ++ m :: r) hE
          simpa using this)
        (by
          intro x hx
          rw [List.nil_append] at hx
          rcases List.mem_append.mp hx with hx | hx
          · exact hz x (List.mem_append_left _ hx)
          · rcases List.mem_cons.mp hx with rfl | hx
            · rfl
            · exact hz x (List.mem_append_right _ hx))
        (by
          intro x hx
          rcases List.mem_append.mp hx with hx | hx
          · have := mem x (List.mem_append_left _ hx); exact ⟨(hE x this).2, hA x this, hn x this⟩
          · rcases List.mem_cons.mp hx with rfl | hx
            · exact ⟨(hE m hm).2, .init, rfl⟩
            · have := mem x (List.mem_append_right _ hx); exact ⟨(hE x this).2, hA x this, hn x this⟩)
      exact Group.Reachable.lift (w := m.w) this hz (hE m hm).2 (hA m hm) (hn m hm)

/-- **C93.** Nobody stores heartbeat data if heartbeats are disabled. -/
theorem c93_disabled {cfg : Config} {hb : HeartbeatInfo} {p : Group} (h : Group.Reachable cfg hb p) (he : hb.enabled = false) :
    ∀ m ∈ p.conns, noted m.w.trace = false := by
  intro m hm
  obtain ⟨k, hk⟩ := List.getElem?_of_mem hm
  have hr := h.good.each k m hk
  cases hn : noted m.w.trace with
  | false => rfl
  | true =>
    obtain ⟨x, hx, ho⟩ := List.any_eq_true.mp hn
    obtain ⟨a, b, hab⟩ := List.append_of_mem hx
    have hg := (Role.reach hr x hx).2
    obtain ⟨w₀, l₃, kk, hist, h₀, -, ht⟩ := hr.was hab
    have hg : x.gor = .beatLoop := by
      obtain ⟨i, g, o, r⟩ := x
      simp only [decide_eq_true_eq] at ho
      subst ho
      simpa [Role.role] using hg
    have := (c73_rounds h₀ ht hg).1
    rw [(h.good.env m hm).2, he] at this
    cases this

/-- **C93.** The peer of one connection can stop all of them: whatever connections share the configuration and whatever they are doing, one more
connection that becomes active and then receives eight bytes brings the process down. -/
theorem c93_fatal {cfg : Config} {hb : HeartbeatInfo} {ms : List Member} (h : Group.Reachable cfg hb ⟨ms, none⟩)
    (ha : ∀ m ∈ ms, m.w.sh.crashed = false) (md : Mode) (n : UInt16) :
    ∃ w, Group.Reachable cfg hb ⟨ms ++ [⟨⟨md, cfg, hb, n⟩, w⟩], none⟩ ∧ receives w.trace = [ackMsg, [1, 0, 1, 1, 0, 0, 0, 8]] ∧ calls w = [] ∧
      ∀ q, ¬ Group.Step cfg hb ⟨ms ++ [⟨⟨md, cfg, hb, n⟩, w⟩], none⟩ q := by
  have hp : (play (body' ⟨md, cfg, hb, n⟩) (M3.Conn.init ⟨md, cfg, hb, n⟩)
      (opening md ++ [.deliver [1, 0, 1, 1, 0, 0, 0, 8]] ++ go 2 2 ++ go 5 2 ++ go 6 1 ++ [.crash 6])).map
        (fun w => (w.sh.crashed, receives w.trace, calls w, noted w.trace)) = some (true, [ackMsg, [1, 0, 1, 1, 0, 0, 0, 8]], [], false) := by
    cases md <;> kernel_rfl
  obtain ⟨w, hw, e⟩ := reach_alone hp (by cases md <;> rfl)
  simp only [Prod.mk.injEq] at e
  have h₁ := h.step (.start md n ha)
  have h₂ := Group.Reachable.lift (c := []) (w := w) h₁ (by rw [List.append_nil]; exact ha) rfl hw e.2.2.2
  refine ⟨w, h₂, e.2.1, e.2.2.1, fun q hq => ?_⟩
  have hal : Group.Alive ⟨ms ++ [⟨⟨md, cfg, hb, n⟩, w⟩], none⟩ := by cases hq <;> assumption
  have := hal ⟨⟨md, cfg, hb, n⟩, w⟩ (by simp)
  rw [e.1] at this
  cases this

/-- A step of one of several connections. -/
def Group.next (hb : HeartbeatInfo) (p : Group) (x : Nat × Choice) : Option Group := match p.conns[x.1]? with
  | none => none
  | some m =>
    if p.conns.all (fun m => !m.w.sh.crashed) && !x.2.foreign then
      match step (body' m.E) (p.seen hb.data x.1 m.w) x.2 with
      | none => none
      | some w' => some ⟨p.conns.set x.1 ⟨m.E, w'⟩, p.owner' x.1 w'⟩
    else none

theorem Group.next_ok {cfg : Config} {hb : HeartbeatInfo} {p q : Group} {x : Nat × Choice} (h : Group.next hb p x = some q) :
    Group.Step cfg hb p q := by
  simp only [Group.next] at h
  split at h
  · cases h
  · rename_i m hm
    split at h
    · rename_i hc
      split at h
      · cases h
      · rename_i w' hs
        simp only [Bool.and_eq_true, List.all_eq_true, Bool.not_eq_true'] at hc
        rw [← body_eq m.E] at hs
        cases h
        exact .conn hc.1 hm (step_sound hs) (step_alone hs hc.2)
    · cases h

/-- A schedule of several connections. -/
def Group.play (hb : HeartbeatInfo) (p : Group) : List (Nat × Choice) → Option Group
  | [] => some p
  | x :: cs => (Group.next hb p x).bind fun q => Group.play hb q cs

theorem Group.play_ok {cfg : Config} {hb : HeartbeatInfo} {p q : Group} {cs : List (Nat × Choice)} (h : Group.Reachable cfg hb p)
    (hp : Group.play hb p cs = some q) : Group.Reachable cfg hb q := by
  induction cs generalizing p with
  | nil => cases hp; exact h
  | cons x cs ih =>
    simp only [Group.play] at hp
    cases hn : Group.next hb p x with
    | none => rw [hn] at hp; cases hp
    | some r => rw [hn] at hp; exact ih (h.step (Group.next_ok hn)) hp

/-- Two connections have been started. -/
def Group.two (cfg : Config) (hb : HeartbeatInfo) (a b : Mode) (n n' : UInt16) : Group :=
  ⟨[⟨⟨a, cfg, hb, n⟩, M3.Conn.init ⟨a, cfg, hb, n⟩⟩, ⟨⟨b, cfg, hb, n'⟩, M3.Conn.init ⟨b, cfg, hb, n'⟩⟩], none⟩

theorem Group.two_ok (cfg : Config) (hb : HeartbeatInfo) (a b : Mode) (n n' : UInt16) : Group.Reachable cfg hb (.two cfg hb a b n n') :=
  Group.Reachable.started cfg hb (Group.two cfg hb a b n n').conns (by
    intro x hx
    simp only [Group.two, List.mem_cons, List.not_mem_nil, or_false] at hx
    rcases hx with rfl | rfl <;> exact ⟨rfl, rfl⟩)

/-- Both connections send a heartbeat and store its data, the second after the first; then the answer to the first arrives. -/
def confusion (a b : Mode) : List (Nat × Choice) :=
  (openingBeatOf a ++ go 3 1 ++ beat sevens).map (fun c => (0, c)) ++
  (openingBeatOf b ++ go 3 1 ++ beat (List.replicate 128 8)).map (fun c => (1, c)) ++
  ([Choice.deliver (message 1 3 6 [tlv 9 sevens])] ++ go 2 2 ++ [Choice.loop 2] ++ go 5 3 ++ [Choice.sync 5 2]).map (fun c => (0, c))

/-- **C93.** With heartbeats, connections that share a configuration confuse each other's answers, whatever it contains: a correct answer to a heartbeat
of one is refused as unexpected after another has sent its own. -/
theorem c93_confused (cfg : Config) (hb : HeartbeatInfo) (he : hb.enabled = true) (a b : Mode) (n n' : UInt16) :
    ∃ (p : Group) (m : Member) (d : Bytes), Group.Reachable cfg hb p ∧ p.conns[0]? = some m ∧ p.owner = some 1 ∧ m.w.sh.st = .active ∧
      ((sends m.w.trace).map Sent.bytes).getLast? = some (message 1 3 3 [tlv 9 d]) ∧ noted m.w.trace = true ∧
      (receives m.w.trace).getLast? = some (message 1 3 6 [tlv 9 d]) ∧ ackRefused m.w = true := by
  have hp : (Group.play hb (.two cfg hb a b n n') (confusion a b)).map (fun p => (p.owner, p.conns[0]?.map fun m =>
        (m.w.sh.st, ((sends m.w.trace).map Sent.bytes).getLast?, noted m.w.trace, (receives m.w.trace).getLast?, ackRefused m.w))) =
      some (some 1, some (.active, some (message 1 3 3 [tlv 9 sevens]), true, some (message 1 3 6 [tlv 9 sevens]), true)) := by
    obtain ⟨en, i, t, d⟩ := hb
    simp only at he
    subst he
    cases a <;> cases b <;> kernel_rfl
  cases hq : Group.play hb (.two cfg hb a b n n') (confusion a b) with
  | none => rw [hq] at hp; cases hp
  | some p =>
    rw [hq] at hp
    simp only [Option.map_some, Option.some.injEq, Prod.mk.injEq] at hp
    cases hm : p.conns[0]? with
    | none => rw [hm] at hp; cases hp.2
    | some m =>
      rw [hm] at hp
      simp only [Option.map_some, Option.some.injEq, Prod.mk.injEq] at hp
      exact ⟨p, m, sevens, Group.play_ok (Group.two_ok cfg hb a b n n') hq, hm, hp⟩

/-- A case of `c93_compared`: the first connection looks up the data, and finds those of the second. -/
example : ∃ p q m m' x, Group.Reachable E₁.cfg E₁.hb p ∧ Group.Step E₁.cfg E₁.hb p q ∧ p.conns[0]? = some m ∧ q.conns[0]? = some m' ∧
    m'.w.trace = m.w.trace ++ [x] ∧ beat? x.ev = some (List.replicate 128 8) ∧ drawn m.w.trace = some sevens := by
  have hp : (Group.play E₁.hb (.two E₁.cfg E₁.hb .server .server 1 1) ((confusion .server .server).dropLast.dropLast)).bind (fun p =>
      (Group.next E₁.hb p (0, .run 5 (.std 0))).bind fun q => p.conns[0]?.bind fun m => q.conns[0]?.map fun m' =>
        ((m'.w.trace.drop m.w.trace.length).map (fun x => beat? x.ev), drawn m.w.trace)) =
      some ([some (List.replicate 128 8)], some sevens) := by kernel_rfl
  cases hq : Group.play E₁.hb (.two E₁.cfg E₁.hb .server .server 1 1) ((confusion .server .server).dropLast.dropLast) with
  | none => rw [hq] at hp; cases hp
  | some p =>
    rw [hq, Option.bind_some] at hp
    cases hn : Group.next E₁.hb p (0, .run 5 (.std 0)) with
    | none => rw [hn] at hp; cases hp
    | some q =>
      rw [hn, Option.bind_some] at hp
      cases hm : p.conns[0]? with
      | none => rw [hm] at hp; cases hp
      | some m =>
        rw [hm, Option.bind_some] at hp
        cases hm' : q.conns[0]? with
        | none => rw [hm'] at hp; cases hp
        | some m' =>
          rw [hm', Option.map_some, Option.some.injEq, Prod.mk.injEq] at hp
          have hpre : ∃ l, m'.w.trace = m.w.trace ++ l := by
            simp only [Group.next, hm] at hn
            split at hn
            · split at hn
              · cases hn
              · rename_i w' hs
                cases hn
                have hk := (List.getElem?_eq_some_iff.mp hm).1
                rw [List.getElem?_set_self hk] at hm'
                cases hm'
                rw [← body_eq] at hs
                exact (step_sound hs).trace
            · cases hn
          obtain ⟨l, hl⟩ := hpre
          rw [hl, List.drop_left] at hp
          obtain ⟨x, t, rfl, hx, ht⟩ := List.map_eq_cons_iff.mp hp.1
          cases List.map_eq_nil_iff.mp ht
          exact ⟨p, q, m, m', x, Group.play_ok (Group.two_ok _ _ _ _ _ _) hq, Group.next_ok hn, hm, hm', hl, hx, hp.2⟩

/-- A case of `c93_each`, `c93_product` and `c93_fatal`: an active connection, and one more whose peer ends the process. -/
example : ∃ (w v : World), Group.Reachable E₀.cfg E₀.hb ⟨[⟨E₀, w⟩, ⟨⟨.server, E₀.cfg, E₀.hb, 3⟩, v⟩], none⟩ ∧ w.sh.st = .active ∧ w.sh.handed = true ∧
    w.sh.crashed = false ∧ v.sh.crashed = true := by
  have h : (play (body' E₀) (M3.Conn.init E₀) (opening .client)).map (fun w => (w.sh.st, w.sh.handed, w.sh.crashed, noted w.trace)) =
      some (.active, true, false, false) := by kernel_rfl
  obtain ⟨w, hw, e⟩ := reach_alone h rfl
  simp only [Prod.mk.injEq] at e
  have hr : Group.Reachable E₀.cfg E₀.hb ⟨[⟨E₀, w⟩], none⟩ := by
    obtain ⟨o, ho⟩ := (c93_product (ms := [⟨E₀, w⟩]) (cfg := E₀.cfg) (hb := E₀.hb) (by simp) (by simp [e.2.2.2])).mpr
      ⟨by simpa using hw, by simp [List.countP_cons, e.2.2.1]⟩
    cases o with
    | none => exact ho
    | some k =>
      have hk := ho.good.own k rfl
      have := ho.good.some k _ rfl (List.getElem?_eq_getElem hk)
      simp at hk
      subst hk
      have this : noted w.trace = true := this
      rw [e.2.2.2] at this
      cases this
  obtain ⟨v, hv, -, -, hd⟩ := c93_fatal hr (by simp [e.2.2.1]) .server 3
  refine ⟨w, v, hv, e.1, e.2.1, e.2.2.1, ?_⟩
  cases hc : v.sh.crashed with
  | true => rfl
  | false => exact absurd (.start .client 0 (by intro x hx; simp at hx; rcases hx with rfl | rfl; exact e.2.2.1; exact hc)) (hd _)

end M3.Conn
