import Verif.Lemmas.Conn.Path
import Verif.Lemmas.Conn.Facts
import Verif.Spec.Conn

/- Proving properties of the operations of one goroutine: the discipline that remembers everything. -/

set_option autoImplicit false

namespace M3.Conn

/-- The discipline whose state is the history of the goroutine. -/
def Hist (P : List Ev → Op → Prop) : Disc (List Ev) where
  start _ s := s = []
  born _ := []
  ok _ s o := P s o
  may _ _ o r := Facts.may o r
  next _ s o r := s ++ [⟨o, r⟩]

namespace Hist

variable {P : List Ev → Op → Prop}

theorem ok_eq {g s o} : (Hist P).ok g s o = P s o := rfl
theorem may_eq {g s o r} : (Hist P).may g s o r = Facts.may o r := rfl
theorem next_eq {g s o r} : (Hist P).next g s o r = s ++ [⟨o, r⟩] := rfl

/-- The results of operations are as they always are. -/
def Real (h : List Ev) : Prop := ∀ e ∈ h, Facts.may e.op e.resp

theorem path {α : Type} {g : Gor} {Q : List Ev → α → Prop} {p : Prog α} {h s : List Ev} {a : α}
    (hw : WP (Hist P) g Q s p) (hr : Real h) (hp : Path p h (.ret a)) : Q (s ++ h) a := by
  generalize hq : Prog.ret a = q at hp
  induction hp generalizing s with
  | nil => subst hq; simpa using wp_ret.mp hw
  | @cons o k r h q _ ih =>
    have := ih ((wp_op.mp hw).2 r (hr ⟨o, r⟩ (.head _))) (fun e he => hr e (.tail _ he)) hq
    rw [next_eq, List.append_assoc] at this
    exact this

theorem at_op {α : Type} {g : Gor} {Q : List Ev → α → Prop} {p q : Prog α} {h₁ h₂ s : List Ev} {e : Ev}
    (hw : WP (Hist P) g Q s p) (hr : Real h₁) (hp : Path p (h₁ ++ e :: h₂) q) : P (s ++ h₁) e.op := by
  induction h₁ generalizing s p with
  | nil =>
    cases hp with
    | cons _ => rw [List.append_nil]; exact (wp_op.mp hw).1
  | cons e' h₁ ih =>
    cases hp with
    | @cons o k r _ _ hp =>
      have := ih ((wp_op.mp hw).2 r (hr ⟨o, r⟩ (.head _))) (fun e he => hr e (.tail _ he)) hp
      rw [next_eq, List.append_assoc] at this
      exact this

theorem now {α : Type} {g : Gor} {Q : List Ev → α → Prop} {p q : Prog α} {h s : List Ev}
    (hw : WP (Hist P) g Q s p) (hr : Real h) (hp : Path p h q) : WP (Hist P) g Q (s ++ h) q := by
  induction hp generalizing s with
  | nil => simpa using hw
  | @cons o k r h q _ ih =>
    have := ih ((wp_op.mp hw).2 r (hr ⟨o, r⟩ (.head _))) (fun e he => hr e (.tail _ he))
    rw [next_eq, List.append_assoc] at this
    exact this

theorem real_of {E : Env} {w : World} (h : Reachable E w) (i : Nat) : Real ((w.of i).map Rec.ev) := by
  intro e he
  obtain ⟨x, hx, rfl⟩ := List.mem_map.mp he
  exact ((Facts.reach h).2.2 x (List.mem_filter.mp hx).1).2

/-- What holds at an operation of a goroutine, in terms of what the goroutine did since it entered its code. -/
theorem iter {E : Env} {w : World} (h : Reachable E w) {i : Nat} {l₁ l₂ : List Rec} {x : Rec}
    (hl : w.of i = l₁ ++ x :: l₂) {Q : List Ev → Option Gor → Prop} (hw : WP (Hist P) x.gor Q [] (body E x.gor)) :
    ∃ pre h₁, l₁ = pre ++ (h₁.map fun e => ⟨i, x.gor, e⟩) ∧ P h₁ x.ev.op := by
  obtain ⟨pre, post, h₁, h₂, q, rfl, rfl, hp, -⟩ := Follows.iter h hl
  have hr := real_of h i
  rw [hl, List.map_append, List.map_append] at hr
  refine ⟨pre, h₁, rfl, ?_⟩
  refine at_op hw (fun e he => hr e (List.mem_append_left _ (List.mem_append_right _ ?_))) hp
  rw [List.map_map, show Rec.ev ∘ (fun e => (⟨i, x.gor, e⟩ : Rec)) = id from rfl, List.map_id]
  exact he

/-- What holds now of the run through the code that an operation belongs to: `R`, and if the goroutine has gone on
to the next run, `C`. -/
theorem run {E : Env} {w : World} (h : Reachable E w) {i : Nat} {l₁ l₂ : List Rec} {x : Rec}
    (hl : w.of i = l₁ ++ x :: l₂) {R : List Ev → Prop} {C : List Ev → Gor → Prop}
    (hw : WP (Hist fun s _ => R s) x.gor (fun s r => R s ∧ ∀ g, r = some g → C s g) [] (body E x.gor)) :
    ∃ (pre post : List Rec) (h₁ h₂ : List Ev), l₁ = pre ++ (h₁.map fun e => ⟨i, x.gor, e⟩) ∧
      l₂ = (h₂.map fun e => ⟨i, x.gor, e⟩) ++ post ∧ R (h₁ ++ x.ev :: h₂) ∧
      (post = [] ∨ ∃ g', C (h₁ ++ x.ev :: h₂) g' ∧ Head E g' post) := by
  obtain ⟨pre, post, h₁, h₂, q, rfl, rfl, hp, hq⟩ := Follows.iter h hl
  have hr : Real (h₁ ++ x.ev :: h₂) := by
    intro e he
    refine real_of h i e ?_
    rw [hl]
    simp only [List.map_append, List.map_map, List.map_cons, List.mem_append, List.mem_cons] at he ⊢
    have : ∀ l : List Ev, List.map (Rec.ev ∘ fun e => (⟨i, x.gor, e⟩ : Rec)) l = l := fun l => List.map_id l
    rw [this, this]
    rcases he with he | he | he
    · exact .inl (.inr he)
    · exact .inr (.inl he)
    · exact .inr (.inr (.inl he))
  have := now hw hr hp
  rw [List.nil_append] at this
  refine ⟨pre, post, h₁, h₂, rfl, rfl, ?_, ?_⟩
  · cases q with
    | ret a => exact (wp_ret.mp this).1
    | op o k => exact (wp_op.mp this).1
  · rcases hq with hq | ⟨g', rfl, hg⟩
    · exact .inl hq
    · exact .inr ⟨g', (wp_ret.mp this).2 g' rfl, hg⟩

/-- What holds at an operation of a goroutine whose code is not a loop. -/
theorem once {E : Env} {w : World} (h : Reachable E w) {i : Nat} {t : Thread} (ht : w.threads[i]? = some t)
    {g : Gor} (hg : t.gor = g) (ho : g.once = true) {Q : List Ev → Option Gor → Prop}
    (hw : WP (Hist P) g Q [] (body E g))
    {l₁ l₂ : List Rec} {x : Rec} (hl : w.of i = l₁ ++ x :: l₂) : P (l₁.map Rec.ev) x.ev.op := by
  obtain ⟨hp, ho⟩ := Follows.once h ht hg ho
  have hr := real_of h i
  rw [hl, List.map_append] at hr
  rw [ho] at hl
  have hm := congrArg (List.map Rec.ev) hl
  rw [List.map_map, show Rec.ev ∘ (fun e => (⟨i, g, e⟩ : Rec)) = id from rfl, List.map_id, List.map_append,
    List.map_cons] at hm
  rw [hm] at hp
  exact at_op hw (fun e he => hr e (List.mem_append_left _ he)) hp

/-- What holds at an operation of a call of the user. -/
theorem api {E : Env} {w : World} (h : Reachable E w) {i : Nat} {t : Thread} (ht : w.threads[i]? = some t)
    {c : Api} (hc : t.gor = .api c) {Q : List Ev → Option Gor → Prop}
    (hw : WP (Hist P) (.api c) Q [] (body E (.api c)))
    {l₁ l₂ : List Rec} {x : Rec} (hl : w.of i = l₁ ++ x :: l₂) : P (l₁.map Rec.ev) x.ev.op :=
  once h ht hc rfl hw hl

/-- A call returns once, as its last operation, and then `C` holds. -/
def Call (C : List Ev → ApiRes → Prop) (s : List Ev) (o : Op) : Prop :=
  s.filterMap Spec.returned? = [] ∧ match o with
    | .done r => C s r
    | _ => True

theorem call {E : Env} {w : World} (h : Reachable E w) {i : Nat} {t : Thread} (ht : w.threads[i]? = some t)
    {c : Api} (hc : t.gor = .api c) {C : List Ev → ApiRes → Prop}
    (hw : WP (Hist (Call C)) (.api c) (fun _ _ => True) [] (body E (.api c)))
    {res : ApiRes} (hm : res ∈ Spec.returns (w.of i)) :
    ∃ l, w.of i = l ++ [⟨i, .api c, .done res, ()⟩] ∧ C (l.map Rec.ev) res := by
  obtain ⟨x, hx, hxr⟩ := List.mem_filterMap.mp hm
  obtain ⟨l₁, l₂, hl⟩ := List.append_of_mem hx
  have hx' : x = ⟨i, .api c, .done res, ()⟩ := by
    obtain ⟨-, ho⟩ := Follows.api h ht hc
    rw [ho] at hx
    obtain ⟨e, -, rfl⟩ := List.mem_map.mp hx
    obtain ⟨o, r⟩ := e
    cases o <;> simp only [Spec.returned?, reduceCtorEq, Option.some.injEq] at hxr
    subst hxr; rfl
  subst hx'
  cases l₂ with
  | nil => exact ⟨l₁, hl, (api h ht hc hw hl).2⟩
  | cons y l₂ =>
    have := (api h ht hc hw (l₁ := l₁ ++ [_]) (x := y) (l₂ := l₂) (by simpa using hl)).1
    simp [Spec.returned?] at this

end Hist

end M3.Conn
