import Verif.Model.Conn.Group
import Verif.Props.Conn.Compared

/- Connections that share a configuration. -/

set_option autoImplicit false
set_option linter.unusedSimpArgs false

namespace M3.Conn

open Spec

/-- What a step of a connection does to the heartbeat data. -/
structure Beat (w w' : World) : Prop where
  ref : (w'.sh.beatRef = w.sh.beatRef ∧ noted w'.trace = noted w.trace) ∨ (w'.sh.beatRef = .buf ∧ noted w'.trace = true)
  buf : w.sh.beatBuf = (drawn w.trace).getD (List.replicate 128 0) → w'.sh.beatBuf = (drawn w'.trace).getD (List.replicate 128 0)

theorem Beat.other {sh sh' : Shared} {ts ts' : List Thread} {l : List Rec} {x : Rec}
    (hr : ∀ r, x.ev ≠ ⟨.rand, some r⟩) (hs : x.ev.op ≠ .setBeat) (h2 : sh'.beatRef = sh.beatRef) (h3 : sh'.beatBuf = sh.beatBuf) :
    Beat ⟨sh, ts, l⟩ ⟨sh', ts', l ++ [x]⟩ :=
  ⟨.inl ⟨h2, by simp [noted_append, hs]⟩, by simp only [drawn_append_none hr, h3]; exact id⟩

theorem Beat.step {E : Env} {w w' : World} (hs : Step E w w') (ho : w'.trace = w.trace → w'.sh.beatRef = w.sh.beatRef) : Beat w w' := by
  cases hs with
  | env _ he => cases he <;> exact ⟨.inl ⟨ho rfl, rfl⟩, id⟩
  | call => exact ⟨.inl ⟨rfl, rfl⟩, id⟩
  | loop => exact ⟨.inl ⟨rfl, rfl⟩, id⟩
  | crash => exact ⟨.inl ⟨rfl, rfl⟩, id⟩
  | run i g hist o k r _ ht hx =>
    clear ho
    obtain ⟨sh, ts, l⟩ := w
    simp only at hx ht ⊢
    cases hx <;>
      first
      | exact .other (by intro _ e; cases e) (by intro e; cases e) rfl rfl
      | skip
    · exact ⟨.inl ⟨rfl, by simp [noted_append]⟩, fun _ => by simp [drawn, List.filterMap_append]⟩
    · exact ⟨.inr ⟨rfl, by simp [noted_append]⟩, by rw [drawn_append_none (by intro _ e; cases e)]; exact id⟩
  | sync i j gi gj hi' hj' oi oj ki kj ri rj _ hij hti htj hx =>
    clear ho
    obtain ⟨sh, ts, l⟩ := w
    simp only at hx hti htj ⊢
    have e : ∀ a b : Rec, l ++ [a, b] = (l ++ [a]) ++ [b] := fun a b => by simp
    rw [e]
    cases hx <;>
      exact ⟨.inl ⟨rfl, by simp [noted, List.any_append]⟩, by
        rw [drawn_append_none (by intro _ e; cases e), drawn_append_none (by intro _ e; cases e)]; exact id⟩

theorem World.withBeat_self (w : World) : w.withBeat w.sh.beatRef = w := rfl

theorem withBeat_step {E : Env} {w : World} {r : BeatRef} (h : Reachable E (w.withBeat r)) (hc : w.sh.crashed = false) (b : Bytes) :
    Reachable E (w.withBeat (.own b)) :=
  .tail h (.env hc (.otherBeat b))

/-- What holds in every state of the process. -/
structure Group.Good (cfg : Config) (hb : HeartbeatInfo) (p : Group) : Prop where
  env : ∀ m ∈ p.conns, m.E.cfg = cfg ∧ m.E.hb = hb
  own : ∀ (k : Nat), p.owner = some k → k < p.conns.length
  each : ∀ (k : Nat) (m : Member), p.conns[k]? = some m → Conn.Reachable m.E (p.seen hb.data k m.w)
  buf : ∀ m ∈ p.conns, m.w.sh.beatBuf = (drawn m.w.trace).getD (List.replicate 128 0)
  none : p.owner = none → ∀ m ∈ p.conns, noted m.w.trace = false
  some : ∀ (k : Nat) (m : Member), p.owner = some k → p.conns[k]? = some m → noted m.w.trace = true

theorem Group.Good.init {cfg : Config} {hb : HeartbeatInfo} : Group.Good cfg hb .init where
  env _ h := absurd h List.not_mem_nil
  own _ h := by cases h
  each k m h := by have h : ([] : List Member)[k]? = Option.some m := h; simp at h
  buf _ h := absurd h List.not_mem_nil
  none _ _ h := absurd h List.not_mem_nil
  some _ _ h := by cases h

theorem Group.Good.step {cfg : Config} {hb : HeartbeatInfo} {p q : Group} (h : p.Good cfg hb) (hs : Group.Step cfg hb p q) : q.Good cfg hb := by
  cases hs with
  | start m n ha =>
    have old : ∀ (k : Nat), k < p.conns.length → (p.conns ++ [⟨⟨m, cfg, hb, n⟩, Conn.init ⟨m, cfg, hb, n⟩⟩])[k]? = p.conns[k]? := fun k hk =>
      List.getElem?_append_left hk
    have hd : Group.data hb.data ⟨p.conns ++ [⟨⟨m, cfg, hb, n⟩, Conn.init ⟨m, cfg, hb, n⟩⟩], p.owner⟩ = p.data hb.data := by
      unfold Group.data
      cases ho : p.owner with
      | none => rfl
      | some k => simp only [old k (h.own k ho)]
    refine ⟨?_, ?_, ?_, ?_, ?_, ?_⟩
    · intro x hx
      rcases List.mem_append.mp hx with hx | hx
      · exact h.env x hx
      · cases List.mem_singleton.mp hx; exact ⟨rfl, rfl⟩
    · intro k hk
      have := h.own k hk
      simp only [List.length_append, List.length_singleton]; omega
    · intro k x hx
      have hv : Group.seen hb.data ⟨p.conns ++ [⟨⟨m, cfg, hb, n⟩, Conn.init ⟨m, cfg, hb, n⟩⟩], p.owner⟩ k x.w = p.seen hb.data k x.w := by
        unfold Group.seen Group.view; rw [hd]
      rw [hv]
      by_cases hk : k < p.conns.length
      · rw [old k hk] at hx; exact h.each k x hx
      · have hlt := (List.getElem?_eq_some_iff.mp hx).1
        simp only [List.length_append, List.length_singleton] at hlt
        obtain rfl : k = p.conns.length := by omega
        rw [List.getElem?_append_right (Nat.le_refl _), Nat.sub_self] at hx
        cases hx
        have : p.owner ≠ Option.some p.conns.length := fun ho => hk (h.own _ ho)
        simp only [Group.seen, Group.view, this, if_false]
        exact withBeat_step (w := Conn.init ⟨m, cfg, hb, n⟩) (r := (Conn.init ⟨m, cfg, hb, n⟩).sh.beatRef) (.refl _) rfl _
    · intro x hx
      rcases List.mem_append.mp hx with hx | hx
      · exact h.buf x hx
      · cases List.mem_singleton.mp hx; rfl
    · intro ho x hx
      rcases List.mem_append.mp hx with hx | hx
      · exact h.none ho x hx
      · cases List.mem_singleton.mp hx; rfl
    · intro k x ho hx
      rw [old k (h.own k ho)] at hx
      exact h.some k x ho hx
  | @conn k m w' ha hm hs hf =>
    have hk := (List.getElem?_eq_some_iff.mp hm).1
    have hB := Beat.step hs hf
    have at' : (p.conns.set k ⟨m.E, w'⟩)[k]? = Option.some ⟨m.E, w'⟩ := by rw [List.getElem?_set_self hk]
    have ne : ∀ (i : Nat), i ≠ k → (p.conns.set k ⟨m.E, w'⟩)[i]? = p.conns[i]? := fun i hi => by
      rw [List.getElem?_set_ne (Ne.symm hi)]
    have mem : ∀ x ∈ p.conns.set k ⟨m.E, w'⟩, x = ⟨m.E, w'⟩ ∨ x ∈ p.conns := fun x hx => (List.mem_or_eq_of_mem_set hx).symm
    have hmm : m ∈ p.conns := List.mem_of_getElem? hm
    -- the owner afterwards
    have ow : (w'.sh.beatRef = .buf ∧ p.owner' k w' = Option.some k ∧ noted w'.trace = true) ∨
        (p.owner' k w' = p.owner ∧ p.owner ≠ Option.some k ∧ w'.sh.beatRef = .own (p.data hb.data) ∧ noted w'.trace = noted m.w.trace) := by
      rcases hB.ref with ⟨h1, h2⟩ | ⟨h1, h2⟩
      · simp only [Group.seen, World.withBeat, Group.view] at h1 h2
        by_cases ho : p.owner = Option.some k
        · rw [if_pos ho] at h1
          exact .inl ⟨h1, by simp [Group.owner', h1], by rw [h2]; exact h.some k m ho hm⟩
        · rw [if_neg ho] at h1
          exact .inr ⟨by simp [Group.owner', h1], ho, h1, h2⟩
      · exact .inl ⟨h1, by simp [Group.owner', h1], h2⟩
    refine ⟨?_, ?_, ?_, ?_, ?_, ?_⟩
    · intro x hx
      rcases mem x hx with rfl | hx
      · exact h.env m hmm
      · exact h.env x hx
    · intro i hi
      simp only [List.length_set]
      rcases ow with ⟨-, h1, -⟩ | ⟨h1, -⟩ <;> rw [h1] at hi
      · cases hi; exact hk
      · exact h.own i hi
    · intro i x hx
      by_cases hi : i = k
      · subst hi
        rw [at'] at hx; cases hx
        have : Group.seen hb.data ⟨p.conns.set i ⟨m.E, w'⟩, p.owner' i w'⟩ i w' = w' := by
          rcases ow with ⟨h1, h2, -⟩ | ⟨h1, h2, h3, -⟩
          · simp only [Group.seen, Group.view, h2, if_true, ← h1, World.withBeat_self]
          · have hd : Group.data hb.data ⟨p.conns.set i ⟨m.E, w'⟩, p.owner⟩ = p.data hb.data := by
              unfold Group.data
              cases ho : p.owner with
              | none => rfl
              | some j => simp only [ne j (by rintro rfl; exact h2 ho)]
            simp only [Group.seen, Group.view, h1, h2, if_false, hd, ← h3, World.withBeat_self]
        rw [this]
        exact .tail (h.each i m hm) hs
      · rw [ne i hi] at hx
        have hx' := h.each i x hx
        by_cases ho : p.owner' k w' = Option.some i
        · have ho' : p.owner = Option.some i := by
            rcases ow with ⟨-, h1, -⟩ | ⟨h1, -⟩
            · rw [h1] at ho; cases ho; exact absurd rfl hi
            · rw [← h1]; exact ho
          simp only [Group.seen, Group.view, ho, ho', if_true] at hx' ⊢
          exact hx'
        · simp only [Group.seen, Group.view, ho, if_false]
          exact withBeat_step hx' (ha x (List.mem_of_getElem? hx)) _
    · intro x hx
      rcases mem x hx with rfl | hx
      · exact hB.buf (h.buf m hmm)
      · exact h.buf x hx
    · intro ho x hx
      rcases ow with ⟨-, h1, -⟩ | ⟨h1, -, -, h2⟩ <;> rw [h1] at ho
      · cases ho
      · rcases mem x hx with rfl | hx
        · rw [h2]; exact h.none ho m hmm
        · exact h.none ho x hx
    · intro i x ho hx
      rcases ow with ⟨-, h1, h2⟩ | ⟨h1, h2, -, h3⟩ <;> rw [h1] at ho
      · cases ho; rw [at'] at hx; cases hx; exact h2
      · have hi : i ≠ k := by rintro rfl; exact h2 ho
        rw [ne i hi] at hx
        exact h.some i x ho hx

theorem Group.Reachable.good {cfg : Config} {hb : HeartbeatInfo} {p : Group} (h : Group.Reachable cfg hb p) : p.Good cfg hb := by
  induction h with
  | init => exact .init
  | step _ hs ih => exact ih.step hs

end M3.Conn
