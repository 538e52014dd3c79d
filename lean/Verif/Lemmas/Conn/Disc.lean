import Verif.Model.Conn.Sys

/- Invariants of all executions. A *discipline* attaches a ghost value to every goroutine and says, for
each operation, when the goroutine may attempt it (`ok`), which results it has to be prepared for
(`may`) and how the ghost value changes (`next`). `WP` checks sequential code against a discipline;
`Pres` are the obligations on the shared state; `Disc.reach` combines the two. -/

set_option autoImplicit false

namespace M3.Conn

structure Disc (σ : Type) where
  /-- ghost values with which the code of a goroutine may be entered -/
  start : Gor → σ → Prop
  born : Gor → σ
  ok : Gor → σ → Op → Prop
  may : Gor → σ → (o : Op) → Resp o → Prop
  next : Gor → σ → (o : Op) → Resp o → σ
  /-- ghost values with which a goroutine may end -/
  fin : σ → Prop := fun _ => True

/-- Weakest precondition of sequential code. -/
def WP {σ : Type} (D : Disc σ) (g : Gor) {α : Type} (Q : σ → α → Prop) : σ → Prog α → Prop
  | s, .ret a => Q s a
  | s, .op o k => D.ok g s o ∧ ∀ r, D.may g s o r → WP D g Q (D.next g s o r) (k r)

section
variable {σ : Type} {D : Disc σ} {g : Gor} {α β : Type}

theorem wp_ret {Q : σ → α → Prop} {s : σ} {a : α} : WP D g Q s (.ret a) ↔ Q s a := Iff.rfl

theorem wp_pure {Q : σ → α → Prop} {s : σ} {a : α} : WP D g Q s (pure a) ↔ Q s a := Iff.rfl

theorem wp_op {Q : σ → α → Prop} {s : σ} {o : Op} {k : Resp o → Prog α} :
    WP D g Q s (.op o k) ↔ D.ok g s o ∧ ∀ r, D.may g s o r → WP D g Q (D.next g s o r) (k r) := Iff.rfl

theorem wp_act {s : σ} {o : Op} {Q : σ → Resp o → Prop} :
    WP D g Q s (act o) ↔ D.ok g s o ∧ ∀ r, D.may g s o r → Q (D.next g s o r) r := Iff.rfl

theorem wp_crash {Q : σ → α → Prop} {s : σ} :
    WP D g Q s (crash : Prog α) ↔ D.ok g s .crash := by
  constructor
  · exact fun h => h.1
  · exact fun h => ⟨h, fun r => nomatch r⟩

theorem wp_mono {Q Q' : σ → α → Prop} (hQ : ∀ s a, Q s a → Q' s a) {p : Prog α} {s : σ} :
    WP D g Q s p → WP D g Q' s p := by
  induction p generalizing s with
  | ret a => exact hQ s a
  | op o k ih => exact fun h => ⟨h.1, fun r hr => ih r (h.2 r hr)⟩

theorem wp_bind {Q : σ → β → Prop} {p : Prog α} {f : α → Prog β} {s : σ} :
    WP D g Q s (p >>= f) ↔ WP D g (fun s' a => WP D g Q s' (f a)) s p := by
  show WP D g Q s (p.bind f) ↔ _
  induction p generalizing s with
  | ret a => exact Iff.rfl
  | op o k ih =>
    simp only [Prog.bind, wp_op]
    exact and_congr Iff.rfl (forall_congr' fun r => imp_congr Iff.rfl (ih r))

theorem wp_ite {Q : σ → α → Prop} {c : Prop} [Decidable c] {p q : Prog α} {s : σ} :
    WP D g Q s (if c then p else q) ↔ (c → WP D g Q s p) ∧ (¬ c → WP D g Q s q) := by
  by_cases h : c <;> simp [h]

end

/-- Postcondition of a body: the loop head it continues at may be entered, or the goroutine may end. -/
def Disc.post {σ : Type} (D : Disc σ) : σ → Option Gor → Prop
  | s, none => D.fin s
  | s, some g' => D.start g' s

/-- The code follows the discipline. -/
structure Disc.Good {σ : Type} (D : Disc σ) (E : Env) : Prop where
  main : D.start .main (D.born .main)
  init : D.start .start (D.born .start)
  monitor : D.start .monitor (D.born .monitor)
  api : ∀ c, D.start (.api c) (D.born (.api c))
  spawn : ∀ g s g', D.ok g s (.spawn g') → D.start g' (D.born g')
  body : ∀ g s, D.start g s → WP D g D.post s (body E g)

/-- The ghost values of the goroutines of a world. -/
def Disc.Linked {σ : Type} (D : Disc σ) (w : World) (ss : List σ) : Prop :=
  ss.length = w.threads.length ∧
  ∀ (i : Nat) (t : Thread) (s : σ), w.threads[i]? = some t → ss[i]? = some s →
    WP D t.gor D.post s t.prog

/-- Obligations on an invariant of shared state, trace and ghost values. -/
structure Pres {σ : Type} (D : Disc σ) (I : Shared → List Rec → List σ → Prop) : Prop where
  env : ∀ (sh sh' : Shared) (tr : List Rec) (ss : List σ), I sh tr ss → EnvStep sh sh' → I sh' tr ss
  call : ∀ (sh : Shared) (tr : List Rec) (ss : List σ) (c : Api), I sh tr ss → sh.handed = true → I sh tr (ss ++ [D.born (.api c)])
  run : ∀ (sh sh' : Shared) (tr : List Rec) (ss : List σ) (i : Nat) (g : Gor) (s : σ) (o : Op) (r : Resp o), I sh tr ss → ss[i]? = some s →
    D.ok g s o → Exec sh o r sh' →
    D.may g s o r ∧
      I sh' (tr ++ [⟨i, g, o, r⟩]) (ss.set i (D.next g s o r) ++ (spawned o).map D.born)
  sync : ∀ (sh sh' : Shared) (tr : List Rec) (ss : List σ) (i j : Nat) (gi gj : Gor) (si sj : σ) (oi oj : Op) (ri : Resp oi) (rj : Resp oj),
    I sh tr ss → i ≠ j → ss[i]? = some si → ss[j]? = some sj → D.ok gi si oi → D.ok gj sj oj →
    Sync sh oi ri oj rj sh' →
    D.may gi si oi ri ∧ D.may gj sj oj rj ∧
      I sh' (tr ++ [⟨i, gi, oi, ri⟩, ⟨j, gj, oj, rj⟩])
        ((ss.set i (D.next gi si oi ri)).set j (D.next gj sj oj rj))
  crash : ∀ (sh : Shared) (tr : List Rec) (ss : List σ) (i : Nat) (g : Gor) (s : σ) (o : Op), I sh tr ss → ss[i]? = some s → D.ok g s o →
    Crashes sh o → I { sh with crashed := true } tr ss

/-- The invariant of a world. -/
def Disc.Holds {σ : Type} (D : Disc σ) (I : Shared → List Rec → List σ → Prop) (w : World) : Prop :=
  ∃ ss, D.Linked w ss ∧ I w.sh w.trace ss

theorem getElem?_some_of_length {α β : Type} {l : List α} {m : List β} (h : l.length = m.length) {i : Nat} {b : β}
    (hb : m[i]? = some b) : ∃ a, l[i]? = some a := by
  obtain ⟨hi, -⟩ := List.getElem?_eq_some_iff.mp hb
  exact ⟨l[i]'(h ▸ hi), List.getElem?_eq_getElem (h ▸ hi)⟩

theorem Disc.linked_append {σ : Type} {D : Disc σ} {E : Env} (hg : D.Good E) {sh : Shared} {tr : List Rec} {ts : List Thread}
    {ss : List σ} (h : D.Linked ⟨sh, ts, tr⟩ ss) (gs : List Gor)
    (hgs : ∀ g ∈ gs, D.start g (D.born g)) (sh' : Shared) (tr' : List Rec) :
    D.Linked ⟨sh', ts ++ gs.map (Thread.fresh E), tr'⟩ (ss ++ gs.map D.born) := by
  refine ⟨by simp [h.1], fun i t s ht hs => ?_⟩
  have hl : ss.length = ts.length := h.1
  by_cases hi : i < ts.length
  · rw [List.getElem?_append_left (by omega)] at hs
    rw [List.getElem?_append_left hi] at ht
    exact h.2 i t s ht hs
  · rw [List.getElem?_append_right (by omega)] at hs
    rw [List.getElem?_append_right (by omega), ← hl] at ht
    rw [List.getElem?_map] at ht hs
    cases hgi : gs[i - ss.length]? with
    | none => simp [hgi] at ht
    | some g =>
      simp only [hgi, Option.map_some, Option.some.injEq] at ht hs
      subst ht; subst hs
      exact hg.body g _ (hgs g (List.mem_of_getElem? hgi))

theorem Disc.linked_set {σ : Type} {D : Disc σ} {sh : Shared} {tr : List Rec} {ts : List Thread}
    {ss : List σ} (h : D.Linked ⟨sh, ts, tr⟩ ss) (i : Nat) (t : Thread) (s : σ)
    (hw : WP D t.gor D.post s t.prog) (sh' : Shared) (tr' : List Rec) :
    D.Linked ⟨sh', ts.set i t, tr'⟩ (ss.set i s) := by
  refine ⟨by simpa using h.1, fun j t' s' ht hs => ?_⟩
  have hl : ss.length = ts.length := h.1
  simp only [List.getElem?_set] at ht hs
  by_cases hij : i = j
  · subst hij
    by_cases hi : i < ts.length
    · simp [hi] at ht; simp [hl, hi] at hs
      subst ht; subst hs; exact hw
    · simp [hi] at ht
  · simp only [hij, if_false] at ht hs
    exact h.2 j t' s' ht hs

theorem Disc.linked_sh {σ : Type} {D : Disc σ} {sh : Shared} {tr : List Rec} {ts : List Thread}
    {ss : List σ} (h : D.Linked ⟨sh, ts, tr⟩ ss) (sh' : Shared) (tr' : List Rec) :
    D.Linked ⟨sh', ts, tr'⟩ ss := h

theorem spawned_start {σ : Type} {D : Disc σ} {E : Env} (hg : D.Good E) {g : Gor} {s : σ} {o : Op}
    (h : D.ok g s o) : ∀ g' ∈ spawned o, D.start g' (D.born g') := by
  intro g' hg'
  cases o <;> simp [spawned] at hg'
  subst hg'
  exact hg.spawn _ _ _ h

/-- The invariant is preserved by every step. -/
theorem Disc.step {σ : Type} {D : Disc σ} {E : Env} (hg : D.Good E) {I : Shared → List Rec → List σ → Prop} (hp : Pres D I)
    {w w' : World} (h : D.Holds I w) (hs : Step E w w') : D.Holds I w' := by
  obtain ⟨ss, hl, hi⟩ := h
  obtain ⟨sh, ts, tr⟩ := w
  cases hs with
  | env hc he => exact ⟨ss, Disc.linked_sh hl _ _, hp.env _ _ _ _ hi he⟩
  | call c hc hh =>
    exact ⟨ss ++ [c].map (fun c => D.born (.api c)), by
      simpa using Disc.linked_append hg hl [.api c] (by simpa using hg.api c) sh tr, hp.call _ _ _ c hi hh⟩
  | run i g h o k r hc ht hx =>
    obtain ⟨s, hsi⟩ := getElem?_some_of_length hl.1 ht
    have hw := hl.2 i _ s ht hsi
    have hr := hp.run _ _ _ _ i g s o r hi hsi hw.1 hx
    exact ⟨_, Disc.linked_append hg (Disc.linked_set hl i ⟨g, h ++ [⟨o, r⟩], k r⟩ _ (hw.2 r hr.1) sh tr) _
      (spawned_start hg hw.1) _ _, hr.2⟩
  | sync i j gi gj h1 h2 oi oj ki kj ri rj hc hij hti htj hx =>
    obtain ⟨si, hsi⟩ := getElem?_some_of_length hl.1 hti
    obtain ⟨sj, hsj⟩ := getElem?_some_of_length hl.1 htj
    have hwi := hl.2 i _ si hti hsi
    have hwj := hl.2 j _ sj htj hsj
    have hr := hp.sync _ _ _ _ i j gi gj si sj oi oj ri rj hi hij hsi hsj hwi.1 hwj.1 hx
    exact ⟨_, Disc.linked_set (Disc.linked_set hl i ⟨gi, h1 ++ [⟨oi, ri⟩], ki ri⟩ _ (hwi.2 ri hr.1) sh tr) j
      ⟨gj, h2 ++ [⟨oj, rj⟩], kj rj⟩ _ (hwj.2 rj hr.2.1) _ _, hr.2.2⟩
  | loop i g g' h hc ht =>
    obtain ⟨s, hsi⟩ := getElem?_some_of_length hl.1 ht
    have hw := hl.2 i _ s ht hsi
    refine ⟨ss, ?_, hi⟩
    have := Disc.linked_set hl i (Thread.fresh E g') s (hg.body g' s hw) sh tr
    rwa [show ss.set i s = ss from by
      obtain ⟨h1, h2⟩ := List.getElem?_eq_some_iff.mp hsi
      rw [← h2]; exact List.set_getElem_self h1] at this
  | crash i g h o k hc ht hx =>
    obtain ⟨s, hsi⟩ := getElem?_some_of_length hl.1 ht
    have hw := hl.2 i _ s ht hsi
    exact ⟨ss, Disc.linked_sh hl _ _, hp.crash _ _ _ i g s o hi hsi hw.1 hx⟩

theorem Disc.steps {σ : Type} {D : Disc σ} {E : Env} (hg : D.Good E) {I : Shared → List Rec → List σ → Prop} (hp : Pres D I)
    {w w' : World} (h : D.Holds I w) (hs : Steps E w w') : D.Holds I w' := by
  induction hs with
  | refl => exact h
  | tail _ hs ih => exact Disc.step hg hp ih hs

theorem Disc.linked_init {σ : Type} {D : Disc σ} {E : Env} (hg : D.Good E) :
    D.Linked (init E) [D.born .main, D.born .start, D.born .monitor] := by
  have := Disc.linked_append hg (D := D) (E := E) (sh := (init E).sh) (tr := []) (ts := []) (ss := [])
    ⟨rfl, fun i t s h => by simp at h⟩ [.main, .start, .monitor]
    (by simpa using ⟨hg.main, hg.init, hg.monitor⟩) (init E).sh []
  simpa [init] using this

/-- The invariant holds in every reachable world. -/
theorem Disc.reach {σ : Type} {D : Disc σ} {E : Env} (hg : D.Good E) {I : Shared → List Rec → List σ → Prop} (hp : Pres D I)
    (h0 : I (init E).sh [] [D.born .main, D.born .start, D.born .monitor]) {w : World} (h : Reachable E w) :
    D.Holds I w :=
  Disc.steps hg hp ⟨_, Disc.linked_init hg, h0⟩ h

theorem Steps.trans {E : Env} {a b c : World} (h : Steps E a b) (h' : Steps E b c) : Steps E a c := by
  induction h' with
  | refl => exact h
  | tail _ hs ih => exact .tail ih hs

/-- The trace only grows. -/
theorem Step.trace {E : Env} {w w' : World} (h : Step E w w') : ∃ l, w'.trace = w.trace ++ l := by
  cases h with
  | run => exact ⟨_, rfl⟩
  | sync => exact ⟨_, rfl⟩
  | _ => exact ⟨[], by simp⟩

theorem Steps.trace {E : Env} {w w' : World} (h : Steps E w w') : ∃ l, w'.trace = w.trace ++ l := by
  induction h with
  | refl => exact ⟨[], by simp⟩
  | tail _ hs ih =>
    obtain ⟨l, hl⟩ := ih
    obtain ⟨l', hl'⟩ := hs.trace
    exact ⟨l ++ l', by simp [hl', hl]⟩

/-- Nothing happens after a crash. -/
theorem Step.notCrashed {E : Env} {w w' : World} (h : Step E w w') : w.sh.crashed = false := by
  cases h <;> assumption

end M3.Conn
