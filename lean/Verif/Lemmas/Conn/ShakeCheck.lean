import Verif.Lemmas.Conn.Shake

/- Exploration of the abstract handshake, level by level (a level: the states after a number of steps). The functions `w…`
make the kernel evaluate a state before it goes on; they change nothing (`wP_eq`). -/

set_option autoImplicit false

namespace M3.Conn.Shake

def wSt {β : Type} (s : St) (k : St → β) : β :=
  match s with
  | .down => k .down | .inactive => k .inactive | .active => k .active | .cdi => k .cdi | .ri => k .ri
def wBool {β : Type} (s : Bool) (k : Bool → β) : β :=
  match s with
  | true => k true | false => k false
def wCond {β : Type} (s : Cond) (k : Cond → β) : β :=
  match s with
  | .idle => k .idle | .waiting => k .waiting | .woken => k .woken
def wSig {β : Type} (s : Sig) (k : Sig → β) : β :=
  match s with
  | .up => k .up | .upAck => k .upAck | .act => k .act | .actAck => k .actAck
def wNat {β : Type} (s : Nat) (k : Nat → β) : β :=
  match s with
  | 0 => k 0 | n + 1 => k (n + 1)
def wList {α β : Type} (w : α → (α → β) → β) : List α → (List α → β) → β
  | [], k => k []
  | a :: l, k => w a fun a => wList w l fun l => k (a :: l)
def wA {β : Type} (a : A) (k : A → β) : β :=
  wSt a.st fun st => wBool a.locked fun locked => wBool a.handed fun handed => wCond a.cond fun cond =>
    wList wSig a.inbox fun inbox => wList wNat a.pcs fun pcs => wNat a.sent fun sent => wNat a.opened fun opened =>
      k ⟨st, locked, handed, cond, inbox, pcs, sent, opened⟩
def wP {β : Type} (p : P) (k : P → β) : β :=
  wA p.c fun c => wA p.s fun s => wList wSig p.toS fun toS => wList wSig p.toC fun toC => k ⟨c, s, toS, toC⟩

theorem wNat_eq {β : Type} (n : Nat) (k : Nat → β) : wNat n k = k n := by cases n <;> rfl
theorem wSig_eq {β : Type} (n : Sig) (k : Sig → β) : wSig n k = k n := by cases n <;> rfl
theorem wList_eq {α β : Type} {w : α → (α → β) → β} (hw : ∀ a k, w a k = k a) (l : List α) (k : List α → β) :
    wList w l k = k l := by
  induction l generalizing k with
  | nil => rfl
  | cons a l ih => rw [wList, hw, ih]
theorem wA_eq {β : Type} (a : A) (k : A → β) : wA a k = k a := by
  obtain ⟨st, l, h, c, i, p, s, o⟩ := a
  cases st <;> cases l <;> cases h <;> cases c <;>
    simp [wA, wSt, wBool, wCond, wList_eq wSig_eq, wList_eq wNat_eq, wNat_eq]
theorem wP_eq {β : Type} (p : P) (k : P → β) : wP p k = k p := by
  simp [wP, wA_eq, wList_eq wSig_eq]

/-- A number that distinguishes most states. -/
def A.key (a : A) : Nat :=
  a.pcs.foldl (fun n l => n * 64 + l) (a.inbox.length * 4 + match a.cond with | .idle => 0 | .waiting => 1 | .woken => 2)

@[inherit_doc A.key] def P.key (p : P) : Nat := (p.c.key * 2 ^ 40 + p.s.key) * 16 + p.toS.length * 4 + p.toC.length

def has (k : Nat) (p : P) : List (Nat × P) → Bool
  | [] => false
  | (k', q) :: l => if Nat.beq k k' then decide (p = q) || has k p l else has k p l

/-- Add states that are not there yet. -/
def add (r : List (Nat × P)) : List (Option P) → List (Nat × P)
  | [] => r
  | none :: l => add r l
  | some p :: l => wP p fun p => wNat p.key fun k => if has k p r then add r l else add ((k, p) :: r) l

/-- The next level, if all states of this one are good. -/
def next (r : List (Nat × P)) : List (Nat × P) → Option (List (Nat × P))
  | [] => some r
  | (_, p) :: l => if p.good (psuccs p) then next (add r (psuccs p)) l else none

/-- All states of a level and the `n` following ones are good, and there are no more. -/
def check : Nat → List (Nat × P) → Bool
  | _, [] => true
  | 0, _ => false
  | n + 1, l =>
    match next [] l with
    | some r => check n r
    | none => false

/-- The level `n` steps later, if all states before it are good. -/
def later : Nat → List (Nat × P) → Option (List (Nat × P))
  | 0, l => some l
  | n + 1, l =>
    match next [] l with
    | some r => later n r
    | none => none

theorem check_later {n m : Nat} {l r : List (Nat × P)} (h : later n l = some r) (hr : check m r = true) : check (n + m) l = true := by
  induction n generalizing l with
  | zero => cases h; rw [Nat.zero_add]; exact hr
  | succ n ih =>
    rw [later] at h
    split at h
    · rename_i s hs
      have := ih h
      rw [Nat.succ_add]
      cases l with
      | nil => rfl
      | cons x l => rw [check, hs]; exact this; intro h; cases h
    · cases h

theorem has_mem {k : Nat} {p : P} {l : List (Nat × P)} (h : has k p l = true) : ∃ k, (k, p) ∈ l := by
  induction l with
  | nil => cases h
  | cons x l ih =>
    obtain ⟨k', q⟩ := x
    rw [has] at h
    split at h
    · rw [Bool.or_eq_true] at h
      rcases h with h | h
      · exact ⟨k', by rw [of_decide_eq_true h]; exact List.mem_cons_self⟩
      · obtain ⟨k, hk⟩ := ih h; exact ⟨k, List.mem_cons_of_mem _ hk⟩
    · obtain ⟨k, hk⟩ := ih h; exact ⟨k, List.mem_cons_of_mem _ hk⟩

theorem add_mem {r : List (Nat × P)} {l : List (Option P)} :
    (∀ k p, (k, p) ∈ r → ∃ k, (k, p) ∈ add r l) ∧ ∀ p, some p ∈ l → ∃ k, (k, p) ∈ add r l := by
  induction l generalizing r with
  | nil => exact ⟨fun k p h => ⟨k, h⟩, nofun⟩
  | cons x l ih =>
    cases x with
    | none =>
      rw [add]
      refine ⟨ih.1, fun p h => ?_⟩
      rcases List.mem_cons.mp h with h | h
      · cases h
      · exact ih.2 p h
    | some q =>
      rw [add, wP_eq, wNat_eq]
      split
      · rename_i hh
        refine ⟨ih.1, fun p h => ?_⟩
        rcases List.mem_cons.mp h with h | h
        · cases h
          obtain ⟨k, hk⟩ := has_mem hh
          exact ih.1 k _ hk
        · exact ih.2 p h
      · refine ⟨fun k p h => ih.1 k p (List.mem_cons_of_mem _ h), fun p h => ?_⟩
        rcases List.mem_cons.mp h with h | h
        · cases h
          exact ih.1 _ _ List.mem_cons_self
        · exact ih.2 p h

theorem next_mem {r l s : List (Nat × P)} (h : next r l = some s) :
    (∀ k p, (k, p) ∈ r → ∃ k, (k, p) ∈ s) ∧
    ∀ k p, (k, p) ∈ l → p.good (psuccs p) = true ∧ ∀ q, some q ∈ psuccs p → ∃ k, (k, q) ∈ s := by
  induction l generalizing r with
  | nil => cases h; exact ⟨fun k p h => ⟨k, h⟩, nofun⟩
  | cons x l ih =>
    obtain ⟨k, q⟩ := x
    rw [next] at h
    split at h
    · rename_i hg
      obtain ⟨h1, h2⟩ := ih h
      refine ⟨fun k p hp => ?_, fun k p hp => ?_⟩
      · obtain ⟨k, hk⟩ := (add_mem (l := psuccs q)).1 k p hp
        exact h1 k p hk
      · rcases List.mem_cons.mp hp with hp | hp
        · cases hp
          refine ⟨hg, fun q hq => ?_⟩
          obtain ⟨k, hk⟩ := (add_mem (r := r)).2 q hq
          exact h1 k q hk
        · exact h2 k p hp
    · cases h

/-- Abstract executions. -/
inductive Run : Nat → P → P → Prop where
  | refl (p : P) : Run 0 p p
  | head {n : Nat} {p q r : P} : some q ∈ psuccs p → Run n q r → Run (n + 1) p r

theorem Run.tail {n : Nat} {p q r : P} (h : Run n p q) (hs : some r ∈ psuccs q) : Run (n + 1) p r := by
  induction h with
  | refl p => exact .head hs (.refl _)
  | head h1 _ ih => exact .head h1 (ih hs)

theorem check_run {f : Nat} {l : List (Nat × P)} (h : check f l = true) {k n : Nat} {p q : P} (hp : (k, p) ∈ l)
    (hr : Run n p q) : n < f ∧ q.good (psuccs q) = true := by
  induction f generalizing l k n p with
  | zero =>
    cases l with
    | nil => cases hp
    | cons x l => cases h
  | succ f ih =>
    cases l with
    | nil => cases hp
    | cons x l =>
      rw [check] at h
      split at h
      · rename_i r hn
        obtain ⟨hg, hs⟩ := (next_mem hn).2 k p hp
        cases hr with
        | refl => exact ⟨by omega, hg⟩
        | head h1 h2 =>
          obtain ⟨k', hk'⟩ := hs _ h1
          obtain ⟨h3, h4⟩ := ih h hk' h2
          exact ⟨by omega, h4⟩
      · cases h
      · intro h; cases h

end M3.Conn.Shake
