import Verif.Lemmas.Conn.Sched
import Verif.Model.Conn.Link

/- Concrete schedules of two endpoints. -/

set_option autoImplicit false

namespace M3.Conn

/-- One step of a schedule of two endpoints: one of them does something, or the `i`-th datagram under way arrives. -/
inductive LChoice where
  | a (c : Choice)
  | b (c : Choice)
  | toB (i : Nat)
  | toA (i : Nat)

/-- Executable `Local`. -/
def localStep (B : Gor → Prog (Option Gor)) (w : World) (c : Choice) : Option World :=
  match step B w c with
  | some w' => if w'.sh.inbox.length ≤ w.sh.inbox.length then some w' else none
  | none => none

theorem localStep_sound {E : Env} {w w' : World} {c : Choice} (h : localStep (body E) w c = some w') : Local E w w' := by
  unfold localStep at h
  split at h
  · rename_i v hv
    split at h
    · rename_i hl
      cases h
      refine ⟨step_sound hv, ?_⟩
      rintro d rfl
      simp [World.deliver] at hl
      omega
    · cases h
  · cases h

/-- Executable `Link.Step`. -/
def linkStep (Ba Bb : Gor → Prog (Option Gor)) (p : Link) : LChoice → Option Link
  | .a c =>
    match localStep Ba p.a c with
    | some a' => some { p with a := a', toB := p.toB ++ a'.out.drop p.a.out.length }
    | none => none
  | .b c =>
    match localStep Bb p.b c with
    | some b' => some { p with b := b', toA := p.toA ++ b'.out.drop p.b.out.length }
    | none => none
  | .toB i =>
    if p.b.sh.crashed then none else
    match p.toB[i]? with
    | some d => some { p with b := p.b.deliver d, toB := p.toB.take i ++ p.toB.drop (i + 1) }
    | none => none
  | .toA i =>
    if p.a.sh.crashed then none else
    match p.toA[i]? with
    | some d => some { p with a := p.a.deliver d, toA := p.toA.take i ++ p.toA.drop (i + 1) }
    | none => none

theorem split_at {α : Type} {l : List α} {i : Nat} {d : α} (h : l[i]? = some d) : l = l.take i ++ d :: l.drop (i + 1) := by
  obtain ⟨h1, h2⟩ := List.getElem?_eq_some_iff.mp h
  rw [← h2, ← List.drop_eq_getElem_cons h1, List.take_append_drop]

theorem linkStep_sound {Ea Eb : Env} {p q : Link} {c : LChoice} (h : linkStep (body Ea) (body Eb) p c = some q) :
    Link.Step Ea Eb p q := by
  cases c with
  | a c =>
    simp only [linkStep] at h
    split at h
    · cases h; exact .a (localStep_sound ‹_›)
    · cases h
  | b c =>
    simp only [linkStep] at h
    split at h
    · cases h; exact .b (localStep_sound ‹_›)
    · cases h
  | toB i =>
    simp only [linkStep] at h
    split at h
    · cases h
    · split at h
      · cases h; exact .toB (by simp_all) (split_at ‹_›)
      · cases h
  | toA i =>
    simp only [linkStep] at h
    split at h
    · cases h
    · split at h
      · cases h; exact .toA (by simp_all) (split_at ‹_›)
      · cases h

/-- Follow a schedule. -/
def linkPlay (Ba Bb : Gor → Prog (Option Gor)) (p : Link) : List LChoice → Option Link
  | [] => some p
  | c :: cs => (linkStep Ba Bb p c).bind fun q => linkPlay Ba Bb q cs

theorem linkPlay_steps {Ea Eb : Env} {p q : Link} {cs : List LChoice} (h : linkPlay (body Ea) (body Eb) p cs = some q) :
    Link.Steps Ea Eb p q := by
  suffices ∀ p₀, Link.Steps Ea Eb p₀ p → Link.Steps Ea Eb p₀ q from this p (.refl p)
  induction cs generalizing p with
  | nil => cases h; exact fun _ h => h
  | cons c cs ih =>
    intro w₀ h₀
    simp only [linkPlay] at h
    cases hs : linkStep (body Ea) (body Eb) p c with
    | none => rw [hs] at h; cases h
    | some v => rw [hs] at h; exact ih h w₀ (.tail h₀ (linkStep_sound hs))

/-- A schedule shows that a state with a given view is reachable. -/
theorem link_of {α : Type} {Ea Eb : Env} {cs : List LChoice} {f : Link → α} {v : α}
    (h : (linkPlay (body' Ea) (body' Eb) (.init Ea Eb) cs).map f = some v) : ∃ p, Link.Reachable Ea Eb p ∧ f p = v := by
  cases hp : linkPlay (body' Ea) (body' Eb) (.init Ea Eb) cs with
  | none => rw [hp] at h; cases h
  | some w =>
    rw [hp] at h
    rw [← body_eq, ← body_eq] at hp
    exact ⟨w, linkPlay_steps hp, Option.some.inj h⟩

/-- The endpoints follow a schedule of their own. -/
def onA (l : List Choice) : List LChoice := l.map .a
def onB (l : List Choice) : List LChoice := l.map .b

/-- The handshake of a client `a` with a server `b`; in the end both are about to read. -/
def shake : List LChoice :=
  onA (boot .client) ++ onB (boot .server) ++
  .toB 0 :: onB (go 2 2 ++ [.loop 2] ++ go 4 5 ++ [.sync 4 2] ++ go 2 4) ++
  .toA 0 :: onA (go 2 2 ++ [.loop 2] ++ go 4 3 ++ [.sync 4 2] ++ go 2 6) ++
  .toB 0 :: onB (go 2 2 ++ [.loop 2] ++ go 5 4 ++ [.sync 5 2] ++ go 2 3 ++ [.sync 2 0] ++ go 2 2 ++ go 0 1) ++
  .toA 0 :: onA (go 2 2 ++ [.loop 2] ++ go 5 2 ++ [.sync 5 2] ++ go 2 3 ++ [.sync 2 0] ++ go 2 2 ++ go 0 1)

end M3.Conn
