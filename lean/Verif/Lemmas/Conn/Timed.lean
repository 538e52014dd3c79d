import Verif.Lemmas.Conn.Solo
import Verif.Lemmas.Conn.Hist
import Verif.Props.Conn.Heartbeats
import Verif.Spec.Timed

/- Executions with a clock. -/

set_option autoImplicit false
set_option linter.unusedSimpArgs false

namespace M3.Conn

open Spec

namespace Timed

/-- The entries of the log of goroutine `i`. -/
def mine (log : List (Rec × Nat)) (i : Nat) : List (Rec × Nat) := log.filter fun p => p.1.tid == i

theorem mine_map {log : List (Rec × Nat)} {w : World} (h : log.map Prod.fst = w.trace) (i : Nat) :
    (mine log i).map Prod.fst = w.of i := by
  rw [World.of, ← h, List.filter_map]
  rfl

theorem lastOf_le {log : List (Rec × Nat)} {n : Nat} (h : ∀ p ∈ log, p.2 ≤ n) (i : Nat) : lastOf log i ≤ n := by
  unfold lastOf
  split
  · rename_i p hp
    exact h p (List.mem_filter.mp (List.mem_of_getLast? hp)).1
  · omega

theorem lastOf_snoc {log : List (Rec × Nat)} {i : Nat} {a : List (Rec × Nat)} {q : Rec × Nat} (h : mine log i = a ++ [q]) :
    lastOf log i = q.2 := by
  unfold lastOf
  unfold mine at h
  rw [h, List.getLast?_append]
  rfl

structure Good (E : Env) (t : Timed) : Prop where
  reach : Conn.Reachable E t.w
  log : t.log.map Prod.fst = t.w.trace
  past : ∀ p ∈ t.log, p.2 ≤ t.now
  order : t.log.Pairwise fun p q => p.2 ≤ q.2
  paced : ∀ a p b, t.log = a ++ p :: b → ∀ d, p.1.ev.after? E = some d → (lastOf a p.1.tid : Int) + d ≤ p.2

theorem after_sync {E : Env} {sh sh' : Shared} {o₁ o₂ : Op} {r₁ : Resp o₁} {r₂ : Resp o₂} (h : Sync sh o₁ r₁ o₂ r₂ sh') :
    (Ev.mk o₁ r₁).after? E = none ∧ (Ev.mk o₂ r₂).after? E = none := by
  cases h <;> exact ⟨rfl, rfl⟩

/-- At most one entry of a step is completed by a timer, and then it is the only one. -/
theorem first {E : Env} {w w' : World} (h : Conn.Step E w w') {l a b : List Rec} {x : Rec} (hl : w'.trace = w.trace ++ l)
    (hx : l = a ++ x :: b) {d : Int} (hd : x.ev.after? E = some d) : a = [] := by
  cases h with
  | run i g hist o k r _ _ _ =>
    have hl := List.append_cancel_left hl
    rw [hx] at hl
    cases a with
    | nil => rfl
    | cons y a => simp at hl
  | sync i j gi gj hi hj oi oj ki kj ri rj _ _ _ _ hs =>
    have hl := List.append_cancel_left hl
    rw [hx] at hl
    obtain ⟨h1, h2⟩ := after_sync (E := E) hs
    cases a with
    | nil => rfl
    | cons y a =>
      cases a with
      | nil =>
        simp only [List.cons_append, List.nil_append, List.cons.injEq] at hl
        rw [← hl.2.1] at hd
        rw [h2] at hd; cases hd
      | cons z a => simp at hl
  | _ =>
    have hl : _ = _ ++ l := hl
    have : l = [] := by simpa using hl
    rw [this] at hx
    simp at hx

theorem Step.good {E : Env} {t t' : Timed} (h : Good E t) (hs : Step E t t') : Good E t' := by
  cases hs with
  | wait d => exact ⟨h.reach, h.log, fun p hp => Nat.le_trans (h.past p hp) (Nat.le_add_right _ _), h.order, h.paced⟩
  | @act w' l hs hl ht =>
    have hnew : ∀ p ∈ l.map (fun x => (x, t.now)), p.2 = t.now := fun p hp => by
      obtain ⟨x, -, rfl⟩ := List.mem_map.mp hp; rfl
    refine ⟨.tail h.reach hs, ?_, fun p hp => ?_, ?_, fun a p b hab d hd => ?_⟩
    · show List.map Prod.fst (_ ++ _) = w'.trace
      rw [List.map_append, h.log, hl, List.map_map]
      exact congrArg _ (List.map_id l)
    · rcases List.mem_append.mp hp with hp | hp
      · exact h.past p hp
      · exact Nat.le_of_eq (hnew p hp)
    · refine List.pairwise_append.mpr ⟨h.order, ?_, fun p hp q hq => ?_⟩
      · exact List.Pairwise.imp_of_mem (R := fun _ _ => True) (fun ha hb _ => by rw [hnew _ ha, hnew _ hb]; exact Nat.le_refl _)
          (List.pairwise_iff_getElem.mpr fun _ _ _ _ _ => trivial)
      · rw [hnew q hq]; exact h.past p hp
    · rcases split_append hab with ⟨c, h1, h2⟩ | ⟨c, h1, h2⟩
      · exact h.paced a p c h1 d hd
      · subst h1
        obtain ⟨l₁, l₂, rfl, rfl, hl2⟩ := List.map_eq_append_iff.mp h2
        obtain ⟨x, l₃, rfl, rfl, -⟩ := List.map_eq_cons_iff.mp hl2
        obtain rfl := first hs hl rfl hd
        rw [List.map_nil, List.append_nil]
        exact ht x (by simp) d hd

theorem Reachable.good {E : Env} {t : Timed} (h : Reachable E t) : Good E t := by
  induction h with
  | init =>
    exact ⟨.refl _, rfl, fun p hp => absurd hp (List.not_mem_nil (a := p)), .nil, fun a p b h =>
      absurd (show [] = a ++ p :: b from h) (by simp)⟩
  | step _ hs ih => exact hs.good ih

/-- Consecutive entries of one goroutine. -/
theorem Good.gap {E : Env} {t : Timed} (h : Good E t) {i : Nat} {a b : List (Rec × Nat)} {q p : Rec × Nat}
    (hl : mine t.log i = a ++ q :: p :: b) {d : Int} (hd : p.1.ev.after? E = some d) : (q.2 : Int) + d ≤ p.2 := by
  have hl : t.log.filter (fun p => p.1.tid == i) = (a ++ [q]) ++ p :: b := by simpa [mine] using hl
  obtain ⟨A, B, hAB, hA, hB⟩ := List.filter_eq_append_iff.mp hl
  obtain ⟨B₁, B₂, rfl, hn, hp, -⟩ := List.filter_eq_cons_iff.mp hB
  have hm : mine (A ++ B₁) i = a ++ [q] := by
    have hz : B₁.filter (fun p => p.1.tid == i) = [] := List.filter_eq_nil_iff.mpr fun x hx => by simpa using hn x hx
    rw [mine, List.filter_append, hA, hz, List.append_nil]
  have := h.paced (A ++ B₁) p B₂ (by rw [hAB]; simp) d hd
  have ht : p.1.tid = i := by simpa using hp
  rw [ht, lastOf_snoc hm] at this
  exact this

theorem Good.sorted {E : Env} {t : Timed} (h : Good E t) (i : Nat) : (mine t.log i).Pairwise fun p q => p.2 ≤ q.2 :=
  h.order.sublist List.filter_sublist

/-- Who was once in the loop of `heartbeat` stays there. -/
theorem stays {E : Env} {w : World} (h : Conn.Reachable E w) : ∀ x ∈ w.trace, x.gor = .beatLoop →
    ∃ t, w.threads[x.tid]? = some t ∧ t.gor = .beatLoop := by
  rw [Conn.Reachable] at h
  have hi : (M3.Conn.init E).trace = [] := rfl
  have hr : Conn.Reachable E (M3.Conn.init E) := .refl _
  generalize M3.Conn.init E = w₀ at h hi hr
  induction h with
  | refl => exact fun x hx => absurd (hi ▸ hx) (List.not_mem_nil (a := x))
  | @tail a c hab hs ih =>
    have hra : Conn.Reachable E a := hr.trans hab
    have old : ∀ (l : List Thread) (i : Nat) (t' : Thread), (∀ t, a.threads[i]? = some t → t.gor = .beatLoop → t'.gor = .beatLoop) →
        ∀ x ∈ a.trace, x.gor = .beatLoop → ∃ t, (a.threads.set i t' ++ l)[x.tid]? = some t ∧ t.gor = .beatLoop := by
      intro l i t' ht x hx hg
      obtain ⟨t, h1, h2⟩ := ih x hx hg
      have hlt := (List.getElem?_eq_some_iff.mp h1).1
      rw [List.getElem?_append_left (by simpa using hlt)]
      by_cases he : i = x.tid
      · subst he
        rw [List.getElem?_set_self hlt]
        exact ⟨t', rfl, ht t h1 h2⟩
      · rw [List.getElem?_set_ne he]
        exact ⟨t, h1, h2⟩
    cases hs with
    | env => exact ih
    | crash => exact ih
    | call c =>
      intro x hx hg
      obtain ⟨t, h1, h2⟩ := ih x hx hg
      exact ⟨t, by rw [List.getElem?_append_left (List.getElem?_eq_some_iff.mp h1).1]; exact h1, h2⟩
    | run i g hist o k r _ ht _ =>
      intro x hx hg
      rcases List.mem_append.mp hx with hx | hx
      · exact old _ i _ (fun t h1 h2 => by rw [ht] at h1; cases h1; exact h2) x hx hg
      · obtain rfl := List.mem_singleton.mp hx
        have hlt := (List.getElem?_eq_some_iff.mp ht).1
        exact ⟨_, by rw [List.getElem?_append_left (by simpa using hlt), List.getElem?_set_self hlt], hg⟩
    | sync i j gi gj hi hj oi oj ki kj ri rj _ hij hti htj _ =>
      have hil := (List.getElem?_eq_some_iff.mp hti).1
      have hjl := (List.getElem?_eq_some_iff.mp htj).1
      intro x hx hg
      rcases List.mem_append.mp hx with hx | hx
      · obtain ⟨t, h1, h2⟩ := ih x hx hg
        by_cases he : j = x.tid
        · rw [← he] at h1 ⊢
          rw [htj] at h1; cases h1
          exact ⟨_, List.getElem?_set_self (by simpa using hjl), h2⟩
        · rw [List.getElem?_set_ne he]
          by_cases he : i = x.tid
          · rw [← he] at h1 ⊢
            rw [hti] at h1; cases h1
            exact ⟨_, List.getElem?_set_self hil, h2⟩
          · rw [List.getElem?_set_ne he]
            exact ⟨t, h1, h2⟩
      · simp only [List.mem_cons, List.not_mem_nil, or_false] at hx
        rcases hx with rfl | rfl
        · exact ⟨_, by rw [List.getElem?_set_ne (Ne.symm hij), List.getElem?_set_self hil], hg⟩
        · exact ⟨_, List.getElem?_set_self (by simpa using hjl), hg⟩
    | loop i g g' hist _ ht =>
      have := old [] i (Thread.fresh E g') (fun t h1 h2 => by
        rw [ht] at h1
        cases h1
        have h2 : g = .beatLoop := h2
        subst h2
        obtain ⟨hp, pre, hpre, -⟩ := (Follows.reach hra).2 i _ ht
        have hreal := Hist.real_of hra i
        rw [hpre, List.map_append] at hreal
        have := Hist.path (beat_rounds E) (fun e he => hreal e (List.mem_append_right _ (by
          rw [List.map_map]; exact (List.map_id hist).symm ▸ he))) hp
        exact this.2 g' rfl)
      simpa using this

end Timed

end M3.Conn
