import Verif.Lemmas.Conn.Code
import Verif.Lemmas.Conn.Count

/- What a single goroutine has done so far is a path through its code. -/

set_option autoImplicit false

namespace M3.Conn

/-- `Path p h q`: executing `p`, with the operations and results `h`, leaves `q`. -/
inductive Path {α : Type} : Prog α → List Ev → Prog α → Prop where
  | nil (p : Prog α) : Path p [] p
  | cons {o : Op} {k : Resp o → Prog α} {r : Resp o} {h : List Ev} {q : Prog α} :
      Path (k r) h q → Path (.op o k) (⟨o, r⟩ :: h) q

namespace Path

variable {α β : Type}

theorem ret_iff {a : α} {h : List Ev} {q : Prog α} : Path (.ret a) h q ↔ h = [] ∧ q = .ret a := by
  constructor
  · intro hp; cases hp; exact ⟨rfl, rfl⟩
  · rintro ⟨rfl, rfl⟩; exact .nil _

theorem op_iff {o : Op} {k : Resp o → Prog α} {h : List Ev} {q : Prog α} :
    Path (.op o k) h q ↔ (h = [] ∧ q = .op o k) ∨ ∃ r h', h = ⟨o, r⟩ :: h' ∧ Path (k r) h' q := by
  constructor
  · intro hp
    cases hp with
    | nil => exact .inl ⟨rfl, rfl⟩
    | cons hp => exact .inr ⟨_, _, rfl, hp⟩
  · rintro (⟨rfl, rfl⟩ | ⟨r, h', rfl, hp⟩)
    · exact .nil _
    · exact .cons hp

theorem snoc {p : Prog α} {h : List Ev} {o : Op} {k : Resp o → Prog α} (hp : Path p h (.op o k)) (r : Resp o) :
    Path p (h ++ [⟨o, r⟩]) (k r) := by
  generalize hq : Prog.op o k = q at hp
  induction hp with
  | nil => subst hq; exact .cons (.nil _)
  | cons _ ih => exact .cons (ih hq)

theorem trans {p q r : Prog α} {h h' : List Ev} (hp : Path p h q) (hq : Path q h' r) : Path p (h ++ h') r := by
  induction hp with
  | nil => exact hq
  | cons _ ih => exact .cons (ih hq)

theorem bind_iff {p : Prog α} {f : α → Prog β} {h : List Ev} {q : Prog β} :
    Path (p >>= f) h q ↔ (∃ p', Path p h p' ∧ q = p' >>= f) ∨
      ∃ a h₁ h₂, Path p h₁ (.ret a) ∧ h = h₁ ++ h₂ ∧ Path (f a) h₂ q := by
  induction p generalizing h with
  | ret a =>
    constructor
    · intro hp; exact .inr ⟨a, [], h, .nil _, rfl, hp⟩
    · rintro (⟨p', hp, rfl⟩ | ⟨b, h₁, h₂, hp, rfl, hq⟩)
      · rw [ret_iff] at hp; obtain ⟨rfl, rfl⟩ := hp; exact .nil _
      · rw [ret_iff] at hp; obtain ⟨rfl, hb⟩ := hp; cases hb; exact hq
  | op o k ih =>
    show Path (.op o fun r => k r >>= f) h q ↔ _
    rw [op_iff]
    constructor
    · rintro (⟨rfl, rfl⟩ | ⟨r, h', rfl, hp⟩)
      · exact .inl ⟨.op o k, .nil _, rfl⟩
      · rcases (ih r).mp hp with ⟨p', hp', rfl⟩ | ⟨a, h₁, h₂, hp', rfl, hq⟩
        · exact .inl ⟨p', .cons hp', rfl⟩
        · exact .inr ⟨a, _, h₂, .cons hp', rfl, hq⟩
    · rintro (⟨p', hp, rfl⟩ | ⟨b, h₁, h₂, hp, rfl, hq⟩)
      · rcases op_iff.mp hp with ⟨rfl, rfl⟩ | ⟨r, h', rfl, hp'⟩
        · exact .inl ⟨rfl, rfl⟩
        · exact .inr ⟨r, h', rfl, (ih r).mpr (.inl ⟨p', hp', rfl⟩)⟩
      · rcases op_iff.mp hp with ⟨rfl, hb⟩ | ⟨r, h', rfl, hp'⟩
        · cases hb
        · exact .inr ⟨r, h' ++ h₂, rfl, (ih r).mpr (.inr ⟨b, h', h₂, hp', rfl, hq⟩)⟩

end Path

/-- The discipline without rules. -/
def Triv : Disc Unit where
  start _ _ := True
  born _ := ()
  ok _ _ _ := True
  may _ _ _ _ := True
  next _ _ _ _ := ()

theorem Triv.ok_eq {g s o} : Triv.ok g s o = True := rfl
theorem Triv.may_eq {g s o r} : Triv.may g s o r = True := rfl
theorem Triv.next_eq {g s o r} : Triv.next g s o r = () := rfl

theorem Triv.path {α : Type} {g : Gor} {Q : Unit → α → Prop} {p : Prog α} {h : List Ev} {a : α}
    (hw : WP Triv g Q () p) (hp : Path p h (.ret a)) : Q () a := by
  generalize hq : Prog.ret a = q at hp
  induction hp with
  | nil => subst hq; exact wp_ret.mp hw
  | cons _ ih => exact ih ((wp_op.mp hw).2 _ trivial) hq

/-- Goroutines whose code is not a loop. -/
def Gor.once : Gor → Bool
  | .monitorLoop | .beatLoop => false
  | _ => true

/-- Only the loops of `monitor` and `heartbeat` are entered again. -/
theorem loops {E : Env} {g g' : Gor} {h : List Ev} (hp : Path (body E g) h (.ret (some g'))) :
    g'.once = false := by
  refine Triv.path (g := g) (Q := fun _ r => ∀ g', r = some g' → g'.once = false) ?_ hp g' rfl
  cases g with
  | monitorLoop =>
    obtain ⟨mode, cfg, hb, ms⟩ := E
    cases mode <;> wp_code [Triv.ok_eq, Triv.may_eq, Triv.next_eq] <;> simp [Gor.once]
  | packet raw =>
    rw [body, packet_eq]
    cases hp : M3UA.parse raw with
    | ok m => cases m <;> wp_code [Triv.ok_eq, Triv.may_eq, Triv.next_eq] <;> simp [Gor.once]
    | _ => wp_code []
  | api c => cases c <;> wp_code [Triv.ok_eq, Triv.may_eq, Triv.next_eq]
  | _ => wp_code [Triv.ok_eq, Triv.may_eq, Triv.next_eq] <;> simp [Gor.once]

/-- What goroutine `i` did, as recorded in the trace. -/
def World.of (w : World) (i : Nat) : List Rec := w.trace.filter fun x => x.tid == i

/-- What goroutine `i` did before it entered the code `g`: complete runs through code that loops. -/
inductive Trail (E : Env) (i : Nat) : List Rec → Gor → Prop where
  | nil (g : Gor) : Trail E i [] g
  | snoc {pre : List Rec} {g g' : Gor} {h : List Ev} : Trail E i pre g → Path (body E g) h (.ret (some g')) →
      Trail E i (pre ++ h.map fun e => ⟨i, g, e⟩) g'

/-- Goroutine `i` does what its code says: the last entries of its trace are a path through the code it is
in, and the entries before are complete runs through other code. -/
def World.Follows (E : Env) (w : World) : Prop :=
  (∀ x ∈ w.trace, x.tid < w.threads.length) ∧
  ∀ (i : Nat) (t : Thread), w.threads[i]? = some t → Path (body E t.gor) t.hist t.prog ∧
    ∃ pre, w.of i = pre ++ t.hist.map (fun e => ⟨i, t.gor, e⟩) ∧ Trail E i pre t.gor

theorem Follows.fresh {E : Env} {w : World} (h : ∀ x ∈ w.trace, x.tid < w.threads.length) (g : Gor) :
    Path (body E (Thread.fresh E g).gor) (Thread.fresh E g).hist (Thread.fresh E g).prog ∧
    ∃ pre, w.of w.threads.length = pre ++ (Thread.fresh E g).hist.map (fun e => ⟨w.threads.length, g, e⟩) ∧
      Trail E w.threads.length pre g := by
  refine ⟨.nil _, [], ?_, .nil _⟩
  simp only [World.of, Thread.fresh, List.map_nil, List.append_nil, List.filter_eq_nil_iff, beq_iff_eq]
  intro x hx he
  have := h x hx
  omega

theorem Follows.step {E : Env} {w w' : World} (h : w.Follows E) (hs : Step E w w') : w'.Follows E := by
  obtain ⟨hlt, hp⟩ := h
  cases hs with
  | env => exact ⟨hlt, hp⟩
  | call c =>
    refine ⟨fun x hx => ?_, fun i t ht => ?_⟩
    · have := hlt x hx; simp; omega
    · rw [List.getElem?_append] at ht
      split at ht
      · exact hp i t ht
      · have hi : i = w.threads.length := by
          have := (List.getElem?_eq_some_iff.mp ht).1
          simp only [List.length_singleton] at this; omega
        subst hi
        simp only [Nat.sub_self, List.getElem?_cons_zero, Option.some.injEq] at ht
        subst ht
        exact Follows.fresh hlt (.api c)
  | run i g hist o k r _ ht hx =>
    have hil := (List.getElem?_eq_some_iff.mp ht).1
    obtain ⟨hpi, pre, hpre, hapi⟩ := hp i _ ht
    refine ⟨fun x hx => ?_, fun j t htj => ?_⟩
    · rcases List.mem_append.mp hx with hx | hx
      · have := hlt x hx; simp; omega
      · simp only [List.mem_singleton] at hx; subst hx; simp; omega
    · rw [List.getElem?_append] at htj
      split at htj
      · rename_i hjl
        simp only [List.length_set] at hjl
        by_cases hji : j = i
        · subst hji
          rw [List.getElem?_set_self hil] at htj
          cases htj
          refine ⟨hpi.snoc r, pre, ?_, hapi⟩
          simp only [World.of] at hpre ⊢
          simp [hpre]
        · rw [List.getElem?_set_ne (Ne.symm hji)] at htj
          obtain ⟨h1, pre', h2, h3⟩ := hp j t htj
          refine ⟨h1, pre', ?_, h3⟩
          simp only [World.of] at h2 ⊢
          simp [h2, Ne.symm hji]
      · rename_i hjl
        simp only [List.length_set] at hjl
        have hj := (List.getElem?_eq_some_iff.mp htj).1
        simp only [List.length_map, List.length_set] at hj htj
        rw [List.getElem?_map] at htj
        clear hx
        cases o <;> simp only [spawned, List.length_nil, List.length_singleton] at hj <;> try omega
        rename_i g'
        have hi : j = w.threads.length := by omega
        subst hi
        simp only [spawned, Nat.sub_self, List.getElem?_cons_zero, Option.map_some, Option.some.injEq] at htj
        subst htj
        obtain ⟨h1, pre', h2, h3⟩ := Follows.fresh (E := E) hlt g'
        refine ⟨h1, pre', ?_, h3⟩
        simp only [World.of] at h2 ⊢
        rw [List.filter_append, h2]
        have : ¬ i = w.threads.length := by omega
        simp [this, Thread.fresh]
  | sync i j gi gj hi hj oi oj ki kj ri rj _ hij hti htj _ =>
    have hil := (List.getElem?_eq_some_iff.mp hti).1
    have hjl := (List.getElem?_eq_some_iff.mp htj).1
    obtain ⟨hpi, prei, hprei, hapii⟩ := hp i _ hti
    obtain ⟨hpj, prej, hprej, hapij⟩ := hp j _ htj
    refine ⟨fun x hx => ?_, fun l t htl => ?_⟩
    · rcases List.mem_append.mp hx with hx | hx
      · have := hlt x hx; simp; omega
      · simp only [List.mem_cons, List.not_mem_nil, or_false] at hx
        rcases hx with rfl | rfl <;> simp <;> omega
    · by_cases hlj : l = j
      · subst hlj
        rw [List.getElem?_set_self (by simpa using hjl)] at htl
        cases htl
        refine ⟨hpj.snoc rj, prej, ?_, hapij⟩
        simp only [World.of] at hprej ⊢
        simp [hprej, hij]
      · rw [List.getElem?_set_ne (Ne.symm hlj)] at htl
        by_cases hli : l = i
        · subst hli
          rw [List.getElem?_set_self hil] at htl
          cases htl
          refine ⟨hpi.snoc ri, prei, ?_, hapii⟩
          simp only [World.of] at hprei ⊢
          simp [hprei, Ne.symm hij]
        · rw [List.getElem?_set_ne (Ne.symm hli)] at htl
          obtain ⟨h1, pre', h2, h3⟩ := hp l t htl
          refine ⟨h1, pre', ?_, h3⟩
          simp only [World.of] at h2 ⊢
          simp [h2, Ne.symm hli, Ne.symm hlj]
  | loop i g g' hist _ ht =>
    have hil := (List.getElem?_eq_some_iff.mp ht).1
    obtain ⟨hpi, pre, hpre, hapi⟩ := hp i _ ht
    refine ⟨fun x hx => by simpa using hlt x hx, fun j t htj => ?_⟩
    by_cases hji : j = i
    · subst hji
      rw [List.getElem?_set_self hil] at htj
      cases htj
      exact ⟨.nil _, _, (by rw [Thread.fresh, List.map_nil, List.append_nil]; exact hpre), .snoc hapi hpi⟩
    · rw [List.getElem?_set_ne (Ne.symm hji)] at htj
      exact hp j t htj
  | crash => exact ⟨hlt, hp⟩

theorem Follows.init (E : Env) : (init E).Follows E := by
  have ht : (M3.Conn.init E).trace = [] := rfl
  refine ⟨fun x hx => ?_, fun i t hi => ?_⟩
  · rw [ht] at hx; cases hx
  · have hm : t ∈ (M3.Conn.init E).threads := List.mem_of_getElem? hi
    obtain ⟨g, rfl⟩ : ∃ g, t = Thread.fresh E g := by
      simp only [M3.Conn.init, List.mem_cons, List.not_mem_nil, or_false] at hm
      rcases hm with rfl | rfl | rfl <;> exact ⟨_, rfl⟩
    refine ⟨.nil _, [], ?_, .nil _⟩
    rw [World.of, ht]; rfl

theorem Follows.reach {E : Env} {w : World} (h : Reachable E w) : w.Follows E := by
  rw [Reachable] at h
  generalize hi : M3.Conn.init E = w₀ at h
  induction h with
  | refl => rw [← hi]; exact Follows.init E
  | tail _ hs ih => exact Follows.step ih hs

/-- A goroutine whose code is not a loop has done nothing before. -/
theorem Trail.once {E : Env} {i : Nat} {pre : List Rec} {g : Gor} (h : Trail E i pre g) (hg : g.once = true) :
    pre = [] := by
  cases h with
  | nil => rfl
  | snoc _ hp => rw [loops hp] at hg; cases hg

/-- The operations of a goroutine whose code is not a loop. -/
theorem Follows.once {E : Env} {w : World} (h : Reachable E w) {i : Nat} {t : Thread} (ht : w.threads[i]? = some t)
    {g : Gor} (hg : t.gor = g) (ho : g.once = true) :
    Path (body E g) t.hist t.prog ∧ w.of i = t.hist.map fun e => ⟨i, g, e⟩ := by
  obtain ⟨h1, pre, h2, h3⟩ := (Follows.reach h).2 i t ht
  rw [hg] at h1 h2 h3
  rw [h3.once ho, List.nil_append] at h2
  exact ⟨h1, h2⟩

/-- The operations of one call of the user. -/
theorem Follows.api {E : Env} {w : World} (h : Reachable E w) {i : Nat} {t : Thread} (ht : w.threads[i]? = some t)
    {c : Api} (hc : t.gor = .api c) :
    Path (body E (.api c)) t.hist t.prog ∧ w.of i = t.hist.map fun e => ⟨i, .api c, e⟩ :=
  Follows.once h ht hc rfl

/-- Entries that a goroutine makes from the code `g` on start with the first operation of that code. -/
def Head (E : Env) (g : Gor) (l : List Rec) : Prop :=
  ∀ y l', l = y :: l' → y.gor = g ∧ ∃ k, body E g = .op y.ev.op k

/-- `l₁ ++ x :: l₂` is what goroutine `i` did: the run through the code of `x.gor` that `x` belongs to. -/
def Iter (E : Env) (i : Nat) (l₁ : List Rec) (x : Rec) (l₂ : List Rec) : Prop :=
  ∃ (pre post : List Rec) (h₁ h₂ : List Ev) (q : Prog (Option Gor)),
    l₁ = pre ++ (h₁.map fun e => ⟨i, x.gor, e⟩) ∧ l₂ = (h₂.map fun e => ⟨i, x.gor, e⟩) ++ post ∧
    Path (body E x.gor) (h₁ ++ x.ev :: h₂) q ∧ (post = [] ∨ ∃ g', q = .ret (some g') ∧ Head E g' post)

/-- No code loops without doing anything. -/
theorem Path.nonempty {E : Env} {g g' : Gor} {h : List Ev} (hp : Path (body E g) h (.ret (some g'))) :
    ∃ e h', h = e :: h' ∧ ∃ k, body E g = .op e.op k := by
  cases h with
  | cons e h' =>
    generalize hb : body E g = p at hp
    cases hp with
    | @cons o k r => exact ⟨_, _, rfl, k, rfl⟩
  | nil =>
    exfalso
    have h : body E g = .ret (some g') := by
      generalize body E g = p at hp
      cases hp; rfl
    cases g with
    | packet raw =>
      rw [body, packet_eq] at h
      cases hp : M3UA.parse raw with
      | ok m => rw [hp] at h; cases h
      | _ => rw [hp] at h; cases h
    | data m => rw [body, handleData_eq] at h; cases h
    | api c =>
      cases c <;> simp only [body, apiCall, chooseStreamID, writeSignal_eq] at h <;> first | cases h | skip
      all_goals (split at h <;> first | cases h | (split at h <;> cases h))
    | _ => cases h

theorem Head.path {E : Env} {i : Nat} {g g' : Gor} {h : List Ev} (hp : Path (body E g) h (.ret (some g'))) (more : List Rec) :
    Head E g ((h.map fun e => ⟨i, g, e⟩) ++ more) := by
  intro y l' hl
  obtain ⟨e, h', rfl, k, hk⟩ := hp.nonempty
  simp only [List.map_cons, List.cons_append, List.cons.injEq] at hl
  obtain ⟨rfl, -⟩ := hl
  exact ⟨rfl, k, hk⟩

theorem split_append {α : Type} {a b l₁ l₂ : List α} {x : α} (h : a ++ b = l₁ ++ x :: l₂) :
    (∃ c, a = l₁ ++ x :: c ∧ l₂ = c ++ b) ∨ (∃ c, l₁ = a ++ c ∧ b = c ++ x :: l₂) := by
  rcases List.append_eq_append_iff.mp h with ⟨c, h1, h2⟩ | ⟨c, h1, h2⟩
  · exact .inr ⟨c, h1, h2⟩
  · cases c with
    | nil => exact .inr ⟨[], by simpa using h1.symm, by simpa using h2.symm⟩
    | cons y c =>
      simp only [List.cons_append, List.cons.injEq] at h2
      obtain ⟨rfl, h2⟩ := h2
      exact .inl ⟨c, h1, h2⟩

theorem map_split {i : Nat} {g : Gor} {h : List Ev} {l₁ l₂ : List Rec} {x : Rec}
    (hh : (h.map fun e => (⟨i, g, e⟩ : Rec)) = l₁ ++ x :: l₂) :
    ∃ h₁ h₂, h = h₁ ++ x.ev :: h₂ ∧ l₁ = (h₁.map fun e => ⟨i, g, e⟩) ∧ x = ⟨i, g, x.ev⟩ ∧
      l₂ = h₂.map fun e => ⟨i, g, e⟩ := by
  obtain ⟨h₁, h₂', rfl, h3, h4⟩ := List.map_eq_append_iff.mp hh
  obtain ⟨e, h₂, rfl, h5, h6⟩ := List.map_eq_cons_iff.mp h4
  subst h5
  exact ⟨h₁, h₂, rfl, h3.symm, rfl, h6.symm⟩

theorem Trail.iter {E : Env} {i : Nat} {pre : List Rec} {g : Gor} (h : Trail E i pre g) {l₁ l₂ : List Rec} {x : Rec}
    (hl : pre = l₁ ++ x :: l₂) (more : List Rec) (hm : Head E g more) : Iter E i l₁ x (l₂ ++ more) := by
  induction h generalizing l₂ more with
  | nil => simp at hl
  | @snoc pre g g' h ht hp ih =>
    rcases split_append hl with ⟨c, h1, h2⟩ | ⟨c, h1, h2⟩
    · rw [h2, List.append_assoc]
      exact ih h1 _ (Head.path hp more)
    · obtain ⟨h₁, h₂, rfl, rfl, hx, rfl⟩ := map_split h2
      have hx' : x.gor = g := by rw [hx]
      refine ⟨pre, more, h₁, h₂, _, ?_, ?_, ?_, .inr ⟨g', rfl, hm⟩⟩ <;> rw [hx']
      · exact h1
      · exact hp

/-- Every operation of a goroutine belongs to a run through its code. -/
theorem Follows.iter {E : Env} {w : World} (h : Reachable E w) {i : Nat} {l₁ l₂ : List Rec} {x : Rec}
    (hl : w.of i = l₁ ++ x :: l₂) : Iter E i l₁ x l₂ := by
  have hf := Follows.reach h
  have hm : x ∈ w.of i := by rw [hl]; simp
  obtain ⟨hm, hi⟩ := List.mem_filter.mp hm
  have hi : x.tid = i := by simpa using hi
  have hlt := hf.1 x hm
  rw [hi] at hlt
  obtain ⟨h1, pre, h2, h3⟩ := hf.2 i _ (List.getElem?_eq_getElem hlt)
  rw [hl] at h2
  rcases split_append h2.symm with ⟨c, h4, h5⟩ | ⟨c, h4, h5⟩
  · rw [h5]
    refine h3.iter h4 _ ?_
    intro y l' hy
    generalize hh : (w.threads[i]'hlt).hist = hist at hy h1
    generalize hb : body E (w.threads[i]'hlt).gor = p at h1 ⊢
    cases h1 with
    | nil => cases hy
    | cons => cases hy; exact ⟨rfl, _, rfl⟩
  · obtain ⟨h₁, h₂, h6, rfl, hx, rfl⟩ := map_split h5
    have hx' : x.gor = (w.threads[i]'hlt).gor := by rw [hx]
    refine ⟨pre, [], h₁, h₂, (w.threads[i]'hlt).prog, ?_, ?_, ?_, .inl rfl⟩ <;> rw [hx']
    · exact h4
    · simp
    · rw [← h6]; exact h1

/-- An entry of the trace that is not one half of a communication was made by a step. -/
theorem Reachable.at {E : Env} {w : World} (h : Reachable E w) {l₁ l₂ : List Rec} {x : Rec}
    (hl : w.trace = l₁ ++ x :: l₂) :
    (∃ (w₀ : World) (sh' : Shared) (k : Resp x.ev.op → Prog (Option Gor)) (hist : List Ev), Reachable E w₀ ∧ w₀.trace = l₁ ∧
      w₀.threads[x.tid]? = some ⟨x.gor, hist, .op x.ev.op k⟩ ∧ Exec w₀.sh x.ev.op x.ev.resp sh') ∨
    ∃ (w₀ : World) (sh' : Shared) (y : Rec), Reachable E w₀ ∧
      ((w₀.trace = l₁ ∧ Sync w₀.sh x.ev.op x.ev.resp y.ev.op y.ev.resp sh') ∨
       (w₀.trace ++ [y] = l₁ ∧ Sync w₀.sh y.ev.op y.ev.resp x.ev.op x.ev.resp sh')) := by
  rw [Reachable] at h
  generalize hi : M3.Conn.init E = w' at h
  induction h generalizing l₂ with
  | refl =>
    subst hi
    have : (M3.Conn.init E).trace = [] := rfl
    rw [this] at hl
    simp at hl
  | @tail a c hab hs ih =>
    subst hi
    have old := fun t (ht : a.trace = l₁ ++ x :: t) => ih ht
    cases hs with
    | env => exact old _ hl
    | call => exact old _ hl
    | loop => exact old _ hl
    | crash => exact old _ hl
    | run i g hist o k r _ ht hx =>
      rcases split_append hl with ⟨c, h1, -⟩ | ⟨c, h1, h2⟩
      · exact old _ h1
      · rcases c with _ | ⟨y, c⟩
        · simp only [List.nil_append, List.cons.injEq] at h2
          obtain ⟨rfl, -⟩ := h2
          exact .inl ⟨a, _, k, hist, hab, by simpa using h1.symm, ht, hx⟩
        · simp at h2
    | sync i j gi gj hi hj oi oj ki kj ri rj _ _ hti htj hx =>
      rcases split_append hl with ⟨c, h1, -⟩ | ⟨c, h1, h2⟩
      · exact old _ h1
      · rcases c with _ | ⟨y, _ | ⟨z, c⟩⟩
        · simp only [List.nil_append, List.cons.injEq] at h2
          obtain ⟨rfl, -⟩ := h2
          exact .inr ⟨a, _, ⟨j, gj, oj, rj⟩, hab, .inl ⟨by simpa using h1.symm, hx⟩⟩
        · simp only [List.cons_append, List.nil_append, List.cons.injEq] at h2
          obtain ⟨rfl, rfl, -⟩ := h2
          exact .inr ⟨a, _, ⟨i, gi, oi, ri⟩, hab, .inr ⟨h1.symm, hx⟩⟩
        · simp at h2

/-- An entry of the trace was made by a goroutine that was waiting to do so. -/
theorem Reachable.was {E : Env} {w : World} (h : Reachable E w) {l₁ l₂ : List Rec} {x : Rec}
    (hl : w.trace = l₁ ++ x :: l₂) :
    ∃ (w₀ : World) (l₃ : List Rec) (k : Resp x.ev.op → Prog (Option Gor)) (hist : List Ev), Reachable E w₀ ∧
      l₁ = w₀.trace ++ l₃ ∧ w₀.threads[x.tid]? = some ⟨x.gor, hist, .op x.ev.op k⟩ := by
  rw [Reachable] at h
  generalize hi : M3.Conn.init E = w' at h
  induction h generalizing l₂ with
  | refl =>
    subst hi
    have : (M3.Conn.init E).trace = [] := rfl
    rw [this] at hl
    simp at hl
  | @tail a c hab hs ih =>
    subst hi
    have old := fun t (ht : a.trace = l₁ ++ x :: t) => ih ht
    cases hs with
    | env => exact old _ hl
    | call => exact old _ hl
    | loop => exact old _ hl
    | crash => exact old _ hl
    | run i g hist o k r _ ht hx =>
      rcases split_append hl with ⟨c, h1, -⟩ | ⟨c, h1, h2⟩
      · exact old _ h1
      · rcases c with _ | ⟨y, c⟩
        · simp only [List.nil_append, List.cons.injEq] at h2
          obtain ⟨rfl, -⟩ := h2
          exact ⟨a, [], k, hist, hab, h1, ht⟩
        · simp at h2
    | sync i j gi gj hi hj oi oj ki kj ri rj _ _ hti htj hx =>
      rcases split_append hl with ⟨c, h1, -⟩ | ⟨c, h1, h2⟩
      · exact old _ h1
      · rcases c with _ | ⟨y, _ | ⟨z, c⟩⟩
        · simp only [List.nil_append, List.cons.injEq] at h2
          obtain ⟨rfl, -⟩ := h2
          exact ⟨a, [], ki, hi, hab, h1, hti⟩
        · simp only [List.cons_append, List.nil_append, List.cons.injEq] at h2
          obtain ⟨rfl, rfl, -⟩ := h2
          exact ⟨a, [_], kj, hj, hab, h1, htj⟩
        · simp at h2

end M3.Conn
