import Verif.Model.Conn.Prompt
import Verif.Props.Conn.Timed
import Verif.Lemmas.Conn.Halt

/- How long the goroutines take at most if they are not kept waiting: C94. -/

set_option autoImplicit false
set_option linter.unusedSimpArgs false

namespace M3.Conn

open Spec

namespace Timed

theorem Prompt.reachable {E : Env} {i : Nat} {t : Timed} (h : Prompt E i t) : Reachable E t := by
  induction h with
  | init => exact .init
  | wait d _ _ ih => exact .step ih (.wait d)
  | act _ hs _ ih => exact .step ih hs

/-- How long an operation can take at most. -/
def limit (E : Env) : Op → Option Nat
  | .estSelect => some 10000000000
  | .ackSelect => some E.hb.timer.toNat
  | .sleepSelect => some E.hb.interval.toNat
  | .write _ _ | .rand | .setBeat | .info | .sctpClose | .opened _ => some 0
  | _ => none

theorem limit_exec {E : Env} {o : Op} {n : Nat} (h : limit E o = some n) (sh : Shared) :
    ∃ r sh', Exec sh o r sh' ∧ ∀ d, (Ev.mk o r).after? E = some d → d ≤ n := by
  cases o <;> first | (cases h; done) | (cases h)
  · exact ⟨_, _, .info, nofun⟩
  · exact ⟨_, _, .writeFail, nofun⟩
  · exact ⟨true, _, .sctpClose, nofun⟩
  · exact ⟨_, _, .ackTimer, fun d hd => by cases hd; omega⟩
  · exact ⟨_, _, .sleepElapsed, fun d hd => by cases hd; omega⟩
  · exact ⟨_, _, .randFail, nofun⟩
  · exact ⟨_, _, .setBeat, nofun⟩
  · exact ⟨_, _, .estTimeout, fun d hd => by cases hd; exact Int.le_refl _⟩
  · exact ⟨_, _, .opened, nofun⟩

/-- How long the goroutine can stay where it is. -/
def stay (E : Env) : Prog (Option Gor) → Option Nat
  | .ret (some _) => some 0
  | .ret none => none
  | .op o _ => limit E o

theorem ready {E : Env} {t : Timed} {i : Nat} {th : Thread} (hc : t.w.sh.crashed = false) (ht : t.w.threads[i]? = some th) {n : Nat}
    (hn : stay E th.prog = some n) (hw : lastOf t.log i + n ≤ t.now) : Ready E t i := by
  obtain ⟨g, h, p⟩ := th
  cases p with
  | ret r =>
    cases r with
    | none => cases hn
    | some g' => exact .inl ⟨hc, g, h, g', ht⟩
  | op o k =>
    obtain ⟨r, sh', hx, hd⟩ := limit_exec (show limit E o = some n from hn) t.w.sh
    refine .inr ⟨_, [⟨i, g, o, r⟩], .run i g h o k r hc ht hx, ⟨_, List.mem_singleton.mpr rfl, rfl⟩, rfl, fun x hx d hxd => ?_⟩
    obtain rfl := List.mem_singleton.mp hx
    have := hd d hxd
    show (lastOf t.log i : Int) + d ≤ t.now
    omega

theorem mine_append_ne (a b : List (Rec × Nat)) (i : Nat) (h : ∀ p ∈ b, p.1.tid ≠ i) : mine (a ++ b) i = mine a i := by
  have : b.filter (fun p => p.1.tid == i) = [] := List.filter_eq_nil_iff.mpr fun p hp => by simpa using h p hp
  rw [mine, mine, List.filter_append, this, List.append_nil]

theorem lastOf_append_ne (a b : List (Rec × Nat)) (i : Nat) (h : ∀ p ∈ b, p.1.tid ≠ i) : lastOf (a ++ b) i = lastOf a i := by
  have := mine_append_ne a b i h
  unfold mine at this
  unfold lastOf
  rw [this]

theorem lastOf_append_eq {a b : List (Rec × Nat)} {i s : Nat} (h : ∀ p ∈ b, p.2 = s) (hb : ∃ p ∈ b, p.1.tid = i) :
    lastOf (a ++ b) i = s := by
  unfold lastOf
  rw [List.filter_append, List.getLast?_append]
  cases hl : (b.filter fun p => p.1.tid == i).getLast? with
  | none =>
    obtain ⟨p, hp, hi⟩ := hb
    have : p ∈ b.filter fun p => p.1.tid == i := List.mem_filter.mpr ⟨hp, by simpa using hi⟩
    rw [List.getLast?_eq_none_iff.mp hl] at this
    cases this
  | some p => exact h p (List.mem_filter.mp (List.mem_of_getLast? hl)).1

/-- What an entry of the trace says about the goroutine before the step. -/
theorem entry {E : Env} {w w' : World} (hs : Conn.Step E w w') {l : List Rec} (hl : w'.trace = w.trace ++ l) {a b : List Rec} {x : Rec}
    (hx : l = a ++ x :: b) : (∃ h k, w.threads[x.tid]? = some ⟨x.gor, h, .op x.ev.op k⟩) ∧ ∀ y ∈ a, y.tid ≠ x.tid := by
  cases hs with
  | run i g h o k r _ ht _ =>
    obtain rfl := List.append_cancel_left hl
    cases a with
    | nil =>
      simp only [List.nil_append, List.cons.injEq] at hx
      obtain ⟨rfl, -⟩ := hx
      exact ⟨⟨h, k, ht⟩, fun y hy => absurd hy List.not_mem_nil⟩
    | cons y a => simp at hx
  | sync i j gi gj hi hj oi oj ki kj ri rj _ hij hti htj _ =>
    obtain rfl := List.append_cancel_left hl
    match a, hx with
    | [], hx =>
      simp only [List.nil_append, List.cons.injEq] at hx
      obtain ⟨rfl, -⟩ := hx
      exact ⟨⟨hi, ki, hti⟩, fun y hy => absurd hy List.not_mem_nil⟩
    | [y], hx =>
      simp only [List.cons_append, List.nil_append, List.cons.injEq] at hx
      obtain ⟨rfl, rfl, -⟩ := hx
      exact ⟨⟨hj, kj, htj⟩, fun y hy => by obtain rfl := List.mem_singleton.mp hy; exact hij⟩
    | y :: z :: a, hx => simp at hx
  | _ =>
    have hl : _ = _ ++ l := hl
    have : l = [] := by simpa using hl
    rw [this] at hx
    simp at hx

/-- What a step does to a goroutine that does nothing in it. -/
theorem still {E : Env} {w w' : World} (hs : Conn.Step E w w') {l : List Rec} (hl : w'.trace = w.trace ++ l) {i : Nat}
    (hi : ∀ x ∈ l, x.tid ≠ i) {th : Thread} (ht : w'.threads[i]? = some th) :
    w.threads[i]? = some th ∨ w.threads.length ≤ i ∨ ∃ g h g', w.threads[i]? = some ⟨g, h, .ret (some g')⟩ := by
  by_cases hlt : w.threads.length ≤ i
  · exact .inr (.inl hlt)
  have hlt : i < w.threads.length := by omega
  cases hs with
  | env => exact .inl ht
  | crash => exact .inl ht
  | call => exact .inl (by rwa [List.getElem?_append_left hlt] at ht)
  | run j g h o k r _ _ _ =>
    obtain rfl := List.append_cancel_left hl
    have hj : j ≠ i := hi _ (List.mem_singleton.mpr rfl)
    have ht : (w.threads.set j _ ++ _)[i]? = some th := ht
    rw [List.getElem?_append_left (by simpa using hlt), List.getElem?_set_ne hj] at ht
    exact .inl ht
  | sync j k gi gj hi' hj oi oj ki kj ri rj _ _ _ _ _ =>
    obtain rfl := List.append_cancel_left hl
    have h1 : j ≠ i := hi ⟨j, gi, oi, ri⟩ (by simp)
    have h2 : k ≠ i := hi ⟨k, gj, oj, rj⟩ (by simp)
    have ht : ((w.threads.set j _).set k _)[i]? = some th := ht
    rw [List.getElem?_set_ne h2, List.getElem?_set_ne h1] at ht
    exact .inl ht
  | loop j g g' h _ htj =>
    by_cases hj : j = i
    · subst hj; exact .inr (.inr ⟨g, h, g', htj⟩)
    · exact .inl (by rwa [List.getElem?_set_ne hj] at ht)

/-- The goroutine that is not kept waiting stays nowhere too long, and did not. -/
structure Swift (E : Env) (i : Nat) (t : Timed) : Prop where
  now : t.w.sh.crashed = false → (mine t.log i ≠ [] ∨ i = 0) → ∀ th, t.w.threads[i]? = some th → ∀ n, stay E th.prog = some n →
    t.now ≤ lastOf t.log i + n
  log : ∀ a p b, t.log = a ++ p :: b → p.1.tid = i → (mine a i ≠ [] ∨ i = 0) → ∀ n, limit E p.1.ev.op = some n →
    p.2 ≤ lastOf a i + n

theorem swift {E : Env} {i : Nat} {t : Timed} (h : Prompt E i t) : Swift E i t := by
  induction h with
  | init =>
    refine ⟨fun _ _ _ _ n _ => Nat.zero_le _, fun a p b h => ?_⟩
    have h : [] = a ++ p :: b := h
    simp at h
  | @wait t d _ hw ih =>
    refine ⟨fun hc hm th ht n hn => ?_, ih.log⟩
    have h1 := ih.now hc hm th ht n hn
    show t.now + d ≤ lastOf t.log i + n
    apply Classical.byContradiction
    intro hlt
    refine hw (lastOf t.log i + n - t.now) (by omega) (ready hc ht hn ?_)
    show lastOf t.log i + n ≤ t.now + (lastOf t.log i + n - t.now)
    omega
  | @act t t' hp hs hnow ih =>
    have hG := hp.reachable.good
    cases hs with
    | wait d =>
      have : d = 0 := by have : t.now + d = t.now := hnow; omega
      subst this
      exact ih
    | @act w' l hs hl ht =>
      have hc : t.w.sh.crashed = false := by cases hs <;> assumption
      have hl2 : ∀ p ∈ l.map (fun x => (x, t.now)), p.2 = t.now := fun p hp => by
        obtain ⟨x, -, rfl⟩ := List.mem_map.mp hp; rfl
      refine ⟨fun _ hm th hth n hn => ?_, fun a p b hab hi hm n hn => ?_⟩
      · show t.now ≤ lastOf (t.log ++ _) i + n
        by_cases hx : ∃ x ∈ l, x.tid = i
        · obtain ⟨x, hx, hxi⟩ := hx
          rw [lastOf_append_eq hl2 ⟨_, List.mem_map.mpr ⟨x, hx, rfl⟩, hxi⟩]
          omega
        · have hx : ∀ x ∈ l, x.tid ≠ i := fun x hxl he => hx ⟨x, hxl, he⟩
          have hne : ∀ p ∈ l.map (fun x => (x, t.now)), p.1.tid ≠ i := fun p hp => by
            obtain ⟨x, hx', rfl⟩ := List.mem_map.mp hp; exact hx x hx'
          rw [lastOf_append_ne _ _ _ hne]
          have hm' : mine t.log i ≠ [] ∨ i = 0 := by
            rcases hm with hm | hm
            · refine .inl fun he => hm ?_
              show mine (t.log ++ _) i = []
              rw [mine_append_ne _ _ _ hne]
              exact he
            · exact .inr hm
          rcases still hs hl hx hth with h1 | h1 | ⟨g, e, g', h1⟩
          · exact ih.now hc hm' th h1 n hn
          · exfalso
            rcases hm' with hm' | rfl
            · refine hm' ?_
              rw [← List.map_eq_nil_iff (f := Prod.fst), mine_map hG.log, World.of, List.filter_eq_nil_iff]
              intro x hx
              have := (Follows.reach hG.reach).1 x hx
              simp; omega
            · have := Halt.third hG.reach; omega
          · have := ih.now hc hm' _ h1 0 rfl
            omega
      · rcases split_append hab with ⟨c, h1, h2⟩ | ⟨c, h1, h2⟩
        · exact ih.log a p c h1 hi hm n hn
        · subst h1
          obtain ⟨l₁, l₂, rfl, rfl, hl3⟩ := List.map_eq_append_iff.mp h2
          obtain ⟨x, l₃, rfl, rfl, -⟩ := List.map_eq_cons_iff.mp hl3
          obtain ⟨⟨e, k, hth⟩, hne⟩ := entry hs hl rfl
          have hi : x.tid = i := hi
          subst hi
          have hne' : ∀ p ∈ l₁.map (fun x => (x, t.now)), p.1.tid ≠ x.tid := fun p hp => by
            obtain ⟨y, hy, rfl⟩ := List.mem_map.mp hp; exact hne y hy
          rw [lastOf_append_ne _ _ _ hne']
          refine ih.now hc ?_ _ hth n hn
          rcases hm with hm | hm
          · refine .inl fun he => hm ?_
            rw [mine_append_ne _ _ _ hne']
            exact he
          · exact .inr hm

/-- Consecutive entries of the goroutine. -/
theorem Swift.gap {E : Env} {t : Timed} {i : Nat} (h : Swift E i t) {a b : List (Rec × Nat)} {q p : Rec × Nat}
    (hl : mine t.log i = a ++ q :: p :: b) {n : Nat} (hn : limit E p.1.ev.op = some n) : p.2 ≤ q.2 + n := by
  have hl : t.log.filter (fun p => p.1.tid == i) = (a ++ [q]) ++ p :: b := by simpa [mine] using hl
  obtain ⟨A, B, hAB, hA, hB⟩ := List.filter_eq_append_iff.mp hl
  obtain ⟨B₁, B₂, rfl, hn', hp, -⟩ := List.filter_eq_cons_iff.mp hB
  have hm : mine (A ++ B₁) i = a ++ [q] := by
    rw [mine_append_ne _ _ _ fun x hx => by simpa using hn' x hx]; exact hA
  have := h.log (A ++ B₁) p B₂ (by rw [hAB]; simp) (by simpa using hp) (.inl (by rw [hm]; simp)) n hn
  rw [lastOf_snoc hm] at this
  exact this

/-- The code of `Dial` and `Accept`. -/
theorem open_forms (E : Env) {h : List Ev} {p : Prog (Option Gor)} (hp : Path openMain h p) :
    (h = [] ∧ ∃ k, p = .op .estSelect k) ∨ (∃ o k, p = .op o k ∧ limit E o = some 0) ∨
    ∃ r, (⟨.opened r, ()⟩ : Ev) ∈ h ∧ p = .ret none := by
  have hopen : ∀ {r : OpenRes} {h : List Ev} {p : Prog (Option Gor)}, Path (.op (.opened r) fun _ => .ret none) h p →
      (∃ o k, p = .op o k ∧ limit E o = some 0) ∨ ((⟨.opened r, ()⟩ : Ev) ∈ h ∧ p = .ret none) := by
    intro r h p hp
    rcases Path.op_iff.mp hp with ⟨rfl, rfl⟩ | ⟨_, h, rfl, hp1⟩
    · exact .inl ⟨_, _, rfl, rfl⟩
    · obtain ⟨rfl, rfl⟩ := Path.ret_iff.mp hp1
      exact .inr ⟨by simp, rfl⟩
  have hclose : ∀ {r : OpenRes} {h : List Ev} {p : Prog (Option Gor)},
      Path (.op .sctpClose fun _ => .op (.opened r) fun _ => .ret none) h p →
      (∃ o k, p = .op o k ∧ limit E o = some 0) ∨ ((⟨.opened r, ()⟩ : Ev) ∈ h ∧ p = .ret none) := by
    intro r h p hp
    rcases Path.op_iff.mp hp with ⟨rfl, rfl⟩ | ⟨_, h, rfl, hp1⟩
    · exact .inl ⟨_, _, rfl, rfl⟩
    · rcases hopen hp1 with h1 | ⟨h1, h2⟩
      · exact .inl h1
      · exact .inr ⟨List.mem_cons_of_mem _ h1, h2⟩
  have hp : Path (.op .estSelect _) h p := hp
  rcases Path.op_iff.mp hp with ⟨rfl, rfl⟩ | ⟨r, h, rfl, hp1⟩
  · exact .inl ⟨rfl, _, rfl⟩
  · right
    cases r with
    | ok =>
      rcases hopen (r := .conn) hp1 with h1 | ⟨h1, h2⟩
      · exact .inl h1
      · exact .inr ⟨_, List.mem_cons_of_mem _ h1, h2⟩
    | closed =>
      rcases hclose (r := .failedToEstablish) hp1 with h1 | ⟨h1, h2⟩
      · exact .inl h1
      · exact .inr ⟨_, List.mem_cons_of_mem _ h1, h2⟩
    | timeout =>
      rcases hclose (r := .timeout) hp1 with h1 | ⟨h1, h2⟩
      · exact .inl h1
      · exact .inr ⟨_, List.mem_cons_of_mem _ h1, h2⟩

/-- The goroutine that called `Dial` or `Accept`. -/
theorem opener {E : Env} {t : Timed} (h : Good E t) : ∃ e p, t.w.threads[0]? = some ⟨.main, e, p⟩ ∧
    (mine t.log 0).map (fun p => p.1.ev) = e ∧
    ((e = [] ∧ ∃ k, p = .op .estSelect k) ∨ (∃ o k, p = .op o k ∧ limit E o = some 0) ∨
      ∃ r, (⟨.opened r, ()⟩ : Ev) ∈ e ∧ p = .ret none) := by
  have h3 := Halt.third h.reach
  obtain ⟨⟨g, e, p⟩, ht⟩ : ∃ th, t.w.threads[0]? = some th := ⟨_, List.getElem?_eq_getElem (by omega)⟩
  have hg : g = .main := by
    have := Halt.class_of h.reach (by omega) ht
    cases g <;> simp [Role.cl] at this
    rfl
  subst hg
  obtain ⟨hp, ho⟩ := Follows.once h.reach ht rfl rfl
  refine ⟨e, p, ht, ?_, open_forms E hp⟩
  have := congrArg (List.map Rec.ev) ((mine_map h.log 0).trans ho)
  rw [List.map_map, List.map_map] at this
  exact this.trans (List.map_id e)

theorem lastOf_nil {log : List (Rec × Nat)} {i : Nat} (h : mine log i = []) : lastOf log i = 0 := by
  unfold mine at h
  unfold lastOf
  rw [h]
  rfl

theorem opener_now {E : Env} {t : Timed} (h : Prompt E 0 t) (hc : t.w.sh.crashed = false)
    (hb : ∀ p ∈ t.log, p.1.tid = 0 → p.2 ≤ 10 * 1000000000) {e : List Ev} {o : Op} {k : Resp o → Prog (Option Gor)}
    (ht : t.w.threads[0]? = some ⟨.main, e, .op o k⟩) : t.now ≤ 10 * 1000000000 := by
  have hn := (swift h).now hc (.inr rfl) _ ht
  obtain ⟨e', p, h1, h2, h3⟩ := opener h.reachable.good
  rw [ht] at h1
  cases h1
  rcases h3 with ⟨rfl, k', h4⟩ | ⟨o', k', h4, h5⟩ | ⟨r, -, h4⟩
  · cases h4
    have := hn _ rfl
    rw [lastOf_nil (List.map_eq_nil_iff.mp h2)] at this
    omega
  · cases h4
    have h6 := hn 0 h5
    have : lastOf t.log 0 ≤ 10 * 1000000000 := by
      unfold lastOf
      split
      · rename_i p hp
        obtain ⟨h7, h8⟩ := List.mem_filter.mp (List.mem_of_getLast? hp)
        exact hb p h7 (by simpa using h8)
      · omega
    omega
  · cases h4

theorem opener_early {E : Env} {t : Timed} (h : Prompt E 0 t) : ∀ p ∈ t.log, p.1.tid = 0 → p.2 ≤ 10 * 1000000000 := by
  induction h with
  | init => exact fun p hp => absurd hp List.not_mem_nil
  | wait d _ _ ih => exact ih
  | @act t t' hp hs hnow ih =>
    cases hs with
    | wait d => exact ih
    | @act w' l hs hl ht =>
      have hc : t.w.sh.crashed = false := by cases hs <;> assumption
      intro p hpl hi
      rcases List.mem_append.mp hpl with hpl | hpl
      · exact ih p hpl hi
      · obtain ⟨x, hx, rfl⟩ := List.mem_map.mp hpl
        obtain ⟨a, b, rfl⟩ := List.append_of_mem hx
        obtain ⟨⟨e, k, hth⟩, -⟩ := entry hs hl rfl
        have hi : x.tid = 0 := hi
        rw [hi] at hth
        obtain ⟨e', p, h1, -, -⟩ := opener hp.reachable.good
        rw [hth] at h1
        have hg : x.gor = .main := congrArg Thread.gor (Option.some.inj h1)
        rw [hg] at hth
        exact opener_now hp hc ih hth

/-- Each number exceeds the one before by `d` at most. -/
def Within (d : Nat) : List Nat → Prop
  | a :: b :: l => b ≤ a + d ∧ Within d (b :: l)
  | _ => True

theorem Within.short {d : Nat} {l : List Nat} (h : l.length ≤ 1) : Within d l := by
  match l, h with
  | [], _ => trivial
  | [_], _ => trivial
  | _ :: _ :: _, h => simp at h

theorem Within.get {d : Nat} {l : List Nat} (h : Within d l) {i : Nat} {a b : Nat} (ha : l[i]? = some a)
    (hb : l[i + 1]? = some b) : b ≤ a + d := by
  induction i generalizing l with
  | zero =>
    match l, h with
    | [], _ => cases ha
    | [_], _ => cases hb
    | c :: c' :: l, h => cases ha; cases hb; exact h.1
  | succ i ih =>
    match l, h with
    | [], _ => cases ha
    | [_], _ => cases hb
    | c :: c' :: l, h => exact ih h.2 ha hb

theorem noWait {l : List Ev} {b : Bool} (h : BeatRound l b) : ∀ e ∈ l, e.op ≠ .waitEnter ∧ e.op ≠ .waitLeave := by
  cases h <;> simp [beaten]

theorem beatTime_none {p : Rec × Nat} (hp : writing p.1.ev = false) : beatTime? p = none := by
  unfold beatTime?
  split
  · cases hp
  · rfl

theorem beatTime_write {p : Rec × Nat} (hg : p.1.gor = .beatLoop) {b : List UInt8} {i : Info} {r : Option Nat}
    (hp : p.1.ev = ⟨.write b i, r⟩) : beatTime? p = some p.2 := by
  obtain ⟨⟨j, g, e⟩, t⟩ := p
  have hg : g = .beatLoop := hg
  have hp : e = ⟨.write b i, r⟩ := hp
  subst hg hp
  rfl

theorem beaten_prefix {X rest T : List Ev} {d : List UInt8} {v : Option Nat} (h : X ++ rest = beaten d v ++ T) :
    (∀ e ∈ X, writing e = false) ∨ ∃ Y, X = beaten d v ++ Y := by
  match X, h with
  | [], _ => exact .inl fun e he => absurd he List.not_mem_nil
  | [a], h =>
    simp only [beaten, List.cons_append, List.nil_append, List.cons.injEq] at h
    obtain ⟨rfl, -⟩ := h
    exact .inl fun e he => by obtain rfl := List.mem_singleton.mp he; rfl
  | [a, b], h =>
    simp only [beaten, List.cons_append, List.nil_append, List.cons.injEq] at h
    obtain ⟨rfl, rfl, -⟩ := h
    refine .inl fun e he => ?_
    simp only [List.mem_cons, List.not_mem_nil, or_false] at he
    rcases he with rfl | rfl <;> rfl
  | a :: b :: c :: Y, h =>
    simp only [beaten, List.cons_append, List.nil_append, List.cons.injEq] at h
    obtain ⟨rfl, rfl, rfl, -⟩ := h
    exact .inr ⟨Y, rfl⟩

/-- The beginning of a round. -/
theorem round_prefix {X rest : List Ev} {b : Bool} (h : BeatRound (X ++ rest) b) :
    (∀ e ∈ X, writing e = false) ∨ ∃ d v Y, X = beaten d v ++ Y := by
  generalize hr : X ++ rest = r at h
  have key : ∀ d v T, X ++ rest = beaten d v ++ T → (∀ e ∈ X, writing e = false) ∨ ∃ d v Y, X = beaten d v ++ Y := by
    intro d v T h
    rcases beaten_prefix h with h | ⟨Y, h⟩
    · exact .inl h
    · exact .inr ⟨d, v, Y, h⟩
  cases h with
  | noRandom =>
    refine .inl fun e he => ?_
    have : e ∈ X ++ rest := List.mem_append_left _ he
    rw [hr] at this
    simp only [List.mem_cons, List.not_mem_nil, or_false] at this
    rcases this with rfl | rfl <;> rfl
  | unsent d => exact key _ _ _ hr
  | cancelled d n => exact key _ _ _ hr
  | closed d n => exact key _ _ _ hr
  | expired d n => exact key _ _ _ hr
  | acked d n stop => exact key _ _ _ hr

theorem first_beat {E : Env} {rounds : List (List Ev)} {last : List Ev} (hr : ∀ r ∈ rounds, BeatRound r true)
    (hl : ∃ rest b, BeatRound (last ++ rest) b) {L : List (Rec × Nat)} (hL : L.map (fun p => p.1.ev) = rounds.flatten ++ last)
    (hgor : ∀ p ∈ L, p.1.gor = .beatLoop) {q : Rec × Nat}
    (hgap : ∀ a p p' b, q :: L = a ++ p :: p' :: b → ∀ n, limit E p'.1.ev.op = some n → p'.2 ≤ p.2 + n)
    {b : Nat} {l : List Nat} (hb : L.filterMap beatTime? = b :: l) : b ≤ q.2 := by
  have key : (∀ e ∈ L.map (fun p => p.1.ev), writing e = false) ∨ ∃ d v Y, L.map (fun p => p.1.ev) = beaten d v ++ Y := by
    cases rounds with
    | nil =>
      obtain ⟨rest, b, h⟩ := hl
      rw [hL]
      exact round_prefix h
    | cons r rs =>
      obtain ⟨d, n, rfl⟩ := again (hr r (List.mem_cons_self ..))
      exact .inr ⟨d, some n, _, by rw [hL, List.flatten_cons, List.append_assoc, List.append_assoc]⟩
  rcases key with key | ⟨d, v, Y, key⟩
  · have : L.filterMap beatTime? = [] := List.filterMap_eq_nil_iff.mpr fun p hp =>
      beatTime_none (key _ (List.mem_map.mpr ⟨p, hp, rfl⟩))
    rw [this] at hb
    cases hb
  · simp only [beaten, List.cons_append, List.nil_append, List.map_eq_cons_iff] at key
    obtain ⟨p1, _, rfl, e1, p2, _, rfl, e2, p3, L, rfl, e3, -⟩ := key
    rw [List.filterMap_cons_none (beatTime_none (by rw [e1]; rfl)), List.filterMap_cons_none (beatTime_none (by rw [e2]; rfl)),
      List.filterMap_cons_some (beatTime_write (hgor p3 (by simp)) e3)] at hb
    have g1 := hgap [] q p1 _ rfl 0 (by rw [e1]; rfl)
    have g2 := hgap [q] p1 p2 _ rfl 0 (by rw [e2]; rfl)
    have g3 := hgap [q, p1] p2 p3 _ rfl 0 (by rw [e3]; rfl)
    cases hb
    omega

theorem close {E : Env} {rounds : List (List Ev)} {last : List Ev} (hr : ∀ r ∈ rounds, BeatRound r true)
    (hl : ∃ rest b, BeatRound (last ++ rest) b) {L : List (Rec × Nat)} (hL : L.map (fun p => p.1.ev) = rounds.flatten ++ last)
    (hgor : ∀ p ∈ L, p.1.gor = .beatLoop)
    (hgap : ∀ a p p' b, L = a ++ p :: p' :: b → ∀ n, limit E p'.1.ev.op = some n → p'.2 ≤ p.2 + n) :
    Within (E.hb.timer.toNat + E.hb.interval.toNat) (L.filterMap beatTime?) := by
  induction rounds generalizing L with
  | nil =>
    refine Within.short (Nat.le_trans (times_le L) ?_)
    obtain ⟨rest, b, h⟩ := hl
    have := round_writes h
    rw [List.countP_append] at this
    rw [hL]
    simp only [List.flatten_nil, List.nil_append]
    omega
  | cons r rs ih =>
    rw [List.flatten_cons, List.append_assoc] at hL
    obtain ⟨L₁, L₂, rfl, h1, h2⟩ := List.map_eq_append_iff.mp hL
    obtain ⟨d, n, rfl⟩ := again (hr r (List.mem_cons_self ..))
    have ih := ih (fun r h => hr r (List.mem_cons_of_mem _ h)) h2 (fun p hp => hgor p (List.mem_append_right _ hp))
      (fun a q p b h => hgap (L₁ ++ a) q p b (by rw [h, List.append_assoc]))
    simp only [beaten, List.cons_append, List.nil_append, List.map_eq_cons_iff, List.map_eq_nil_iff] at h1
    obtain ⟨p1, _, rfl, e1, p2, _, rfl, e2, p3, _, rfl, e3, p4, _, rfl, e4, p5, _, rfl, e5, p6, _, rfl, e6, rfl⟩ := h1
    have g4 := hgap [p1, p2] p3 p4 _ rfl 0 (by rw [e4]; rfl)
    have g5 := hgap [p1, p2, p3] p4 p5 _ rfl _ (by rw [e5]; rfl)
    have g6 := hgap [p1, p2, p3, p4] p5 p6 _ rfl _ (by rw [e6]; rfl)
    have hfirst := fun b l => first_beat (b := b) (l := l) (fun r h => hr r (List.mem_cons_of_mem _ h)) hl h2
      (fun p hp => hgor p (List.mem_append_right _ hp)) (q := p6)
      (fun a q p b h => hgap ([p1, p2, p3, p4, p5] ++ a) q p b (by rw [List.append_assoc, ← h]; rfl))
    rw [List.filterMap_append]
    simp only [List.filterMap_cons, beatTime_none (p := p1) (by rw [e1]; rfl), beatTime_none (p := p2) (by rw [e2]; rfl),
      beatTime_write (hgor p3 (by simp)) e3, beatTime_none (p := p4) (by rw [e4]; rfl), beatTime_none (p := p5) (by rw [e5]; rfl),
      beatTime_none (p := p6) (by rw [e6]; rfl), List.filterMap_nil, List.cons_append, List.nil_append]
    cases hc : L₂.filterMap beatTime? with
    | nil => trivial
    | cons b l =>
      rw [hc] at ih
      have := hfirst b l hc
      exact ⟨by omega, ih⟩

end Timed

/-- C94: `Dial` and `Accept` return after ten seconds at the latest if the goroutine that called them is not kept waiting: when
more time has passed they have returned, and not later than after ten seconds (unless the program has crashed before). -/
theorem c94_returns {E : Env} {t : Timed} (h : Timed.Prompt E 0 t) (hc : t.w.sh.crashed = false) (ht : 10 * 1000000000 < t.now) :
    ∃ x s r, (x, s) ∈ t.log ∧ x.ev.op = .opened r ∧ s ≤ 10 * 1000000000 := by
  have hb := Timed.opener_early h
  obtain ⟨e, p, h1, h2, h3⟩ := Timed.opener h.reachable.good
  cases p with
  | op o k => exact absurd (Timed.opener_now h hc hb h1) (by omega)
  | ret r =>
    rcases h3 with ⟨-, k', h4⟩ | ⟨o', k', h4, -⟩ | ⟨r, h4, -⟩
    · cases h4
    · cases h4
    · rw [← h2] at h4
      obtain ⟨⟨x, s⟩, h5, h6⟩ := List.mem_map.mp h4
      obtain ⟨h5, h7⟩ := List.mem_filter.mp h5
      exact ⟨x, s, r, h5, by rw [show x.ev = _ from h6], hb _ h5 (by simpa using h7)⟩

/-- C94: if the goroutine that sends the heartbeats is not kept waiting, not more than `Timer` and `Interval` together pass
between one heartbeat and the next. -/
theorem c94_frequent {E : Env} {t : Timed} {i : Nat} (h : Timed.Prompt E i t) (hi : ∃ p ∈ t.log, p.1.tid = i ∧ p.1.gor = .beatLoop)
    (k : Nat) {a b : Nat} (ha : (beatTimes t.log)[k]? = some a) (hb : (beatTimes t.log)[k + 1]? = some b) :
    b ≤ a + E.hb.timer.toNat + E.hb.interval.toNat := by
  obtain ⟨p, hp, rfl, hg⟩ := hi
  have hG := h.reachable.good
  have mem : ∀ q ∈ t.log, q.1 ∈ t.w.trace := fun q hq => hG.log ▸ List.mem_map_of_mem (f := Prod.fst) hq
  have hsolo := fun q hq => Solo.reach hG.reach (mem p hp) (mem q hq) hg
  rw [← Timed.beatTimes_mine (i := p.1.tid) fun q hq hqg => ((hsolo q hq).mp hqg).1] at ha hb
  obtain ⟨th, h1, h2⟩ := Timed.stays hG.reach p.1 (mem p hp) hg
  obtain ⟨-, rounds, last, h3, h4, h5, -⟩ := c73_rounds hG.reach h1 h2
  have hm := Timed.mine_map hG.log p.1.tid
  rw [← hm, List.map_map, List.append_assoc] at h3
  obtain ⟨L₁, L₂, hL, h6, h7⟩ := List.map_eq_append_iff.mp h3
  have hnone : L₁.filterMap beatTime? = [] := List.filterMap_eq_nil_iff.mpr fun q hq => Timed.beatTime_none (by
    have : q.1.ev ∈ L₁.map (Rec.ev ∘ Prod.fst) := List.mem_map.mpr ⟨q, hq, rfl⟩
    rw [h6] at this
    simp only [List.mem_cons, List.not_mem_nil, or_false] at this
    rcases this with h | h <;> rw [h] <;> rfl)
  rw [hL, List.filterMap_append, hnone, List.nil_append] at ha hb
  have hgor : ∀ q ∈ L₂, q.1.gor = .beatLoop := by
    intro q hq
    have hq' : q ∈ Timed.mine t.log p.1.tid := by rw [hL]; exact List.mem_append_right _ hq
    obtain ⟨hq1, hq2⟩ := List.mem_filter.mp hq'
    have he : q.1.ev ∈ rounds.flatten ++ last := by rw [← h7]; exact List.mem_map.mpr ⟨q, hq, rfl⟩
    have hno : q.1.ev.op ≠ .waitEnter ∧ q.1.ev.op ≠ .waitLeave := by
      rcases List.mem_append.mp he with he | he
      · obtain ⟨r, hr, he⟩ := List.mem_flatten.mp he
        exact Timed.noWait (h4 r hr) _ he
      · obtain ⟨rest, b, hb⟩ := h5
        exact Timed.noWait hb _ (List.mem_append_left _ he)
    exact (hsolo q hq1).mpr ⟨by simpa using hq2, hno⟩
  have hw := Timed.close h4 h5 h7 hgor fun a q p' b hab n hn =>
    (Timed.swift h).gap (a := L₁ ++ a) (by rw [hL, hab, List.append_assoc]) hn
  have := hw.get ha hb
  omega

/-- C94: the goroutine that sends the heartbeats waits at most `Timer` for an acknowledgement and at most `Interval` before the
next heartbeat, counted from the last thing it did, if it is not kept waiting. -/
theorem c94_waits {E : Env} {t : Timed} {i : Nat} (h : Timed.Prompt E i t) (hc : t.w.sh.crashed = false) {e : List Ev} {o : Op}
    {k : Resp o → Prog (Option Gor)} (ht : t.w.threads[i]? = some ⟨.beatLoop, e, .op o k⟩) :
    (o = .ackSelect → t.now ≤ lastOf t.log i + E.hb.timer.toNat) ∧
    (o = .sleepSelect → t.now ≤ lastOf t.log i + E.hb.interval.toNat) := by
  have hG := h.reachable.good
  have hm : Timed.mine t.log i ≠ [] := by
    intro he
    obtain ⟨-, rounds, last, h3, -⟩ := c73_rounds hG.reach ht rfl
    rw [← Timed.mine_map hG.log i, he] at h3
    simp at h3
  have := (Timed.swift h).now hc (.inl hm) _ ht
  constructor
  · rintro rfl; exact this _ rfl
  · rintro rfl; exact this _ rfl

namespace Timed

/-- Where a goroutine waits. -/
def tag : Prog (Option Gor) → Nat
  | .op .ackSelect _ => 1
  | .op .sleepSelect _ => 2
  | .op .estSelect _ => 3
  | .op .sendAck _ => 4
  | .op .sendEst _ => 5
  | .ret (some _) => 6
  | _ => 0

/-- A goroutine that has to wait for its timer. -/
theorem stuck {E : Env} {t : Timed} {i k : Nat} {d : Int} (hk : (t.w.threads.map fun th => tag th.prog)[i]? = some k)
    (hall : ∀ n ∈ t.w.threads.map (fun th => tag th.prog), n ≠ 4 ∧ n ≠ 5) (hsh : t.w.sh.ctxDone = false ∧ t.w.sh.ackClosed = false ∧
      t.w.sh.estClosed = false) (hd : duration E k = some d) (hnow : t.now < lastOf t.log i + d) : ¬ Ready E t i := by
  rw [List.getElem?_map, Option.map_eq_some_iff] at hk
  obtain ⟨⟨g, h, p⟩, ht, rfl⟩ := hk
  have no : ∀ (j : Nat) (g : Gor) (h : List Ev) (p : Prog (Option Gor)), t.w.threads[j]? = some ⟨g, h, p⟩ → tag p ≠ 4 ∧ tag p ≠ 5 :=
    fun j g h p hj => hall _ (List.mem_map.mpr ⟨_, List.mem_of_getElem? hj, rfl⟩)
  rintro (⟨-, g', h', g'', h1⟩ | ⟨w', l, hs, ⟨x, hx, rfl⟩, hl, htime⟩)
  · rw [ht] at h1
    cases h1
    cases hd
  · cases hs with
    | run j g' h' o k' r _ htj hex =>
      obtain rfl := List.append_cancel_left hl
      obtain rfl := List.mem_singleton.mp hx
      have := htime _ hx
      have ht : t.w.threads[j]? = some ⟨g, h, p⟩ := ht
      rw [htj] at ht
      cases ht
      cases hex <;> first
        | (cases hd; done)
        | (simp_all; done)
        | (have := this _ rfl; cases hd; exact absurd hnow (by show ¬ (t.now : Int) < lastOf t.log j + _; have : (lastOf t.log j : Int) + _ ≤ t.now := this; omega))
    | sync j j' gi gj hi hj oi oj ki kj ri rj _ _ hti htj hsy =>
      obtain rfl := List.append_cancel_left hl
      simp only [List.mem_cons, List.not_mem_nil, or_false] at hx
      have h1 := no _ _ _ _ hti
      rcases hx with rfl | rfl
      · have ht : t.w.threads[j]? = some ⟨g, h, p⟩ := ht
        rw [hti] at ht
        cases ht
        cases hsy <;> cases hd
      · have ht : t.w.threads[j']? = some ⟨g, h, p⟩ := ht
        rw [htj] at ht
        cases ht
        cases hsy <;> first | (cases hd; done) | exact h1.1 rfl | exact h1.2 rfl
    | _ =>
      have hl : _ = _ ++ l := hl
      have : l = [] := by simpa using hl
      rw [this] at hx
      cases hx

/-- A goroutine that has come to its end. -/
theorem ended {E : Env} {t : Timed} {i : Nat} {g : Gor} {h : List Ev} (ht : t.w.threads[i]? = some ⟨g, h, .ret none⟩) : ¬ Ready E t i := by
  rintro (⟨-, g', h', g'', h1⟩ | ⟨w', l, hs, ⟨x, hx, rfl⟩, hl, -⟩)
  · rw [ht] at h1; cases h1
  · obtain ⟨a, b, rfl⟩ := List.append_of_mem hx
    obtain ⟨⟨e, k, h1⟩, -⟩ := entry hs hl rfl
    rw [ht] at h1; cases h1

theorem Prompt.follow {E : Env} {i : Nat} {t : Timed} {w' : World} {l : List Rec} (h : Prompt E i t) (hs : Steps E t.w w')
    (hl : w'.trace = t.w.trace ++ l) (ht : ∀ x ∈ l, kind x.ev = 0) :
    Prompt E i ⟨w', t.now, t.log ++ l.map fun x => (x, t.now)⟩ := by
  generalize hw : t.w = w at hs hl
  induction hs generalizing l with
  | refl =>
    have : l = [] := by simpa using hl
    subst this
    simpa [← hw] using h
  | @tail b c hab hbc ih =>
    obtain ⟨l₁, h1⟩ := hab.trace
    obtain ⟨l₂, h2⟩ := hbc.trace
    have : l = l₁ ++ l₂ := by
      rw [h2, h1, List.append_assoc] at hl
      exact (List.append_cancel_left hl).symm
    subst this
    have ih := ih (l := l₁) (fun x hx => ht x (List.mem_append_left _ hx)) h1
    have := Prompt.act ih (Step.act (t := ⟨b, t.now, t.log ++ l₁.map fun x => (x, t.now)⟩) hbc h2 fun x hx d hd => by
      rw [after_none (ht x (List.mem_append_right _ hx))] at hd; cases hd) rfl
    simpa using this

theorem reach_four {α : Type} {E : Env} {cs ds es : List Choice} {c : Choice} {f : World → World → World → World → α} {v : α}
    (h : ((play (body' E) (Conn.init E) cs).bind fun w => (play (body' E) w ds).bind fun w' => (step (body' E) w' c).bind fun w'' =>
      (play (body' E) w'' es).map (f w w' w'')) = some v) :
    ∃ w w' w'' v4, Conn.Reachable E w ∧ Steps E w w' ∧ Conn.Step E w' w'' ∧ Steps E w'' v4 ∧ f w w' w'' v4 = v := by
  obtain ⟨w, hw, h⟩ := Option.bind_eq_some_iff.mp h
  obtain ⟨w', hw', h⟩ := Option.bind_eq_some_iff.mp h
  obtain ⟨w'', hw'', h⟩ := Option.bind_eq_some_iff.mp h
  obtain ⟨v4, hw4, h⟩ := Option.map_eq_some_iff.mp h
  exact ⟨w, w', w'', v4, play_reachable' hw, play_steps (body_eq E ▸ hw'), step_sound (body_eq E ▸ hw''),
    play_steps (body_eq E ▸ hw4), h⟩

/-- What `stuck` asks. -/
def view (i : Nat) (w : World) : Option Nat × Bool × Bool :=
  ((w.threads.map fun th => tag th.prog)[i]?, (w.threads.map fun th => tag th.prog).all fun n => n != 4 && n != 5,
    !w.sh.ctxDone && !w.sh.ackClosed && !w.sh.estClosed)

/-- The connection goes on until the goroutine has to wait for its timer, and then the time passes. -/
theorem Prompt.stage {E : Env} {i k : Nat} {t : Timed} {w' : World} {l : List Rec} {d : Int} (h : Prompt E i t) (hs : Steps E t.w w')
    (hl : w'.trace = t.w.trace ++ l) (hkind : (l.all fun x => kind x.ev == 0) = true) (hv : view i w' = (some k, true, true))
    (hd : duration E k = some d) (hlast : t.now = 0 ∨ (l.any fun x => x.tid == i) = true) :
    Prompt E i ⟨w', t.now + d.toNat, t.log ++ l.map fun x => (x, t.now)⟩ := by
  have h1 := h.follow hs hl fun x hx => by simpa using List.all_eq_true.mp hkind x hx
  simp only [view, Prod.mk.injEq, List.all_eq_true, Bool.and_eq_true, bne_iff_ne, Bool.not_eq_true'] at hv
  refine .wait d.toNat h1 fun d' hd' => stuck hv.1 (fun n hn => hv.2.1 n hn) ⟨hv.2.2.1.1, hv.2.2.1.2, hv.2.2.2⟩ hd ?_
  have : t.now ≤ lastOf (t.log ++ l.map fun x => (x, t.now)) i := by
    rcases hlast with h0 | hx
    · omega
    · obtain ⟨x, hx, hi⟩ := List.any_eq_true.mp hx
      rw [lastOf_append_eq (s := t.now) (fun p hp => by obtain ⟨y, -, rfl⟩ := List.mem_map.mp hp; rfl)
        ⟨_, List.mem_map.mpr ⟨x, hx, rfl⟩, by simpa using hi⟩]
      omega
  show ((t.now + d' : Nat) : Int) < lastOf (t.log ++ l.map fun x => (x, t.now)) i + d
  omega

/-- The timer fires. -/
theorem Prompt.fire {E : Env} {i : Nat} {t : Timed} {w' : World} {x : Rec} {d : Int} (h : Prompt E i ⟨t.w, t.now + d.toNat, t.log⟩)
    (hp : ∀ p ∈ t.log, p.2 ≤ t.now) (hs : Conn.Step E t.w w') (hl : w'.trace = t.w.trace ++ [x]) (hd : duration E (kind x.ev) = some d) :
    0 ≤ d → Prompt E i ⟨w', t.now + d.toNat, t.log ++ [(x, t.now + d.toNat)]⟩ := fun h0 =>
  .act h (Step.act (t := ⟨t.w, t.now + d.toNat, t.log⟩) (l := [x]) hs hl fun y hy d' hd' => by
    obtain rfl := List.mem_singleton.mp hy
    rw [kind_after, hd] at hd'
    cases hd'
    have := lastOf_le hp y.tid
    show (lastOf t.log y.tid : Int) + d ≤ (t.now + d.toNat : Nat)
    omega) rfl

end Timed

/-- C94: ten seconds can pass before `Dial` or `Accept` returns, also if its goroutine is not kept waiting. -/
theorem c94_returns_tight (E : Env) : ∃ t x r, Timed.Prompt E 0 t ∧ t.w.sh.crashed = false ∧ 10 * 1000000000 < t.now ∧
    (x, 10 * 1000000000) ∈ t.log ∧ x.ev.op = .opened r := by
  obtain ⟨w₁, w₂, w₃, h1, h2, h3, hv⟩ := reach_step (E := E) (cs := []) (c := .run 0 .timer) (ds := go 0 2)
    (f := fun w w' w'' => (w.trace.length, Timed.view 0 w, (w'.trace.drop w.trace.length).map (fun x => Timed.kind x.ev),
      (w''.trace.drop w'.trace.length).map (fun x => (Timed.kind x.ev, x.ev.op)),
      w''.sh.crashed, w''.threads[0]?.map fun th => (th.prog.result?)))
    (v := (0, (some 3, true, true), [3], [(0, .sctpClose), (0, .opened .timeout)], false, some (some none))) (by kernel_rfl)
  simp only [Prod.mk.injEq] at hv
  obtain ⟨k1, k2, k3, k4, k5, k6⟩ := hv
  have k1 := List.eq_nil_of_length_eq_zero k1
  obtain ⟨l, hl⟩ := h2.trace
  obtain ⟨l', hl'⟩ := h3.trace
  rw [hl, List.drop_left] at k3
  rw [hl', List.drop_left] at k4
  obtain ⟨x, l₀, rfl, hx, hn⟩ := List.map_eq_cons_iff.mp k3
  obtain rfl := List.map_eq_nil_iff.mp hn
  have p1 := (Timed.Prompt.init (E := E) (i := 0)).stage (l := []) h1 (by rw [k1]; rfl) rfl (by simpa [Timed.view] using k2) (d := tenSeconds) rfl (.inl rfl)
  have p2 := Timed.Prompt.fire (t := ⟨w₁, 0, []⟩) p1 (fun p hp => absurd hp List.not_mem_nil) h2 hl (by rw [hx]; rfl) (by decide)
  have hz : ∀ y ∈ l', Timed.kind y.ev = 0 := fun y hy => by
    have : (Timed.kind y.ev, y.ev.op) ∈ l'.map (fun x => (Timed.kind x.ev, x.ev.op)) := List.mem_map.mpr ⟨y, hy, rfl⟩
    rw [k4] at this
    simp only [List.mem_cons, Prod.mk.injEq, List.not_mem_nil, or_false] at this
    rcases this with h | h <;> exact h.1
  have p3 := p2.follow h3 hl' hz
  have hin : (0, Op.opened .timeout) ∈ l'.map (fun x => (Timed.kind x.ev, x.ev.op)) := by rw [k4]; simp
  obtain ⟨y, hy, he⟩ := List.mem_map.mp hin
  obtain ⟨⟨g, e, p⟩, ht, hp⟩ := Option.map_eq_some_iff.mp k6
  have hp : p = .ret none := by
    cases p with
    | ret r => cases hp; rfl
    | op => cases hp
  subst hp
  have p4 := p3.wait 1 fun d' _ => Timed.ended (t := { w := w₃, now := _, log := _ }) ht
  have hten : tenSeconds.toNat = 10 * 1000000000 := by decide
  refine ⟨_, y, .timeout, p4, k5, ?_, List.mem_append_right _ (List.mem_map.mpr ⟨y, hy, ?_⟩), (Prod.mk.inj he).2⟩
  · show 10 * 1000000000 < 0 + tenSeconds.toNat + 1
    omega
  · show (y, 0 + tenSeconds.toNat) = _
    rw [hten, Nat.zero_add]

/-- C94: and `Timer` and `Interval` together can pass between two heartbeats. -/
theorem c94_frequent_tight {E : Env} (he : E.hb.enabled = true) (ht : 0 ≤ E.hb.timer) (hi : 0 ≤ E.hb.interval) :
    ∃ t, Timed.Prompt E 3 t ∧ (∃ p ∈ t.log, p.1.tid = 3 ∧ p.1.gor = .beatLoop) ∧
      beatTimes t.log = [0, E.hb.timer.toNat + E.hb.interval.toNat] := by
  obtain ⟨w₁, w₂, w₃, w₄, h1, h2, h3, h4, hv⟩ := Timed.reach_four (E := E)
    (cs := openingBeatOf E.mode ++ go 3 1 ++ beat (List.replicate 128 0))
    (ds := [.deliver (message 1 3 6 [tlv 9 (List.replicate 128 0)])] ++ go 2 2 ++ [.loop 2] ++ go 5 3 ++ [.sync 5 3])
    (c := .run 3 .timer) (es := beat (List.replicate 128 1))
    (f := fun w₁ w₂ w₃ w₄ => ((Timed.view 3 w₁, w₁.trace.all fun x => Timed.kind x.ev == 0),
      (Timed.view 3 w₂, (w₂.trace.drop w₁.trace.length).all (fun x => Timed.kind x.ev == 0),
        (w₂.trace.drop w₁.trace.length).any (fun x => x.tid == 3)),
      (w₃.trace.drop w₂.trace.length).map (fun x => Timed.kind x.ev),
      ((w₄.trace.drop w₃.trace.length).all (fun x => Timed.kind x.ev == 0),
        (w₄.trace.drop w₃.trace.length).any (fun x => x.tid == 3 && decide (x.gor = .beatLoop))),
      (w₁.trace.countP Timed.isBeat, (w₂.trace.drop w₁.trace.length).countP Timed.isBeat,
        (w₃.trace.drop w₂.trace.length).countP Timed.isBeat, (w₄.trace.drop w₃.trace.length).countP Timed.isBeat)))
    (v := (((some 1, true, true), true), ((some 2, true, true), true, true), [2], (true, true), (1, 0, 0, 1))) (by
      obtain ⟨mode, cfg, ⟨en, a, b, c⟩, ms⟩ := E
      simp only at he
      subst he
      cases mode <;> kernel_rfl)
  simp only [Prod.mk.injEq] at hv
  obtain ⟨⟨a1, a2⟩, ⟨b1, b2, b3⟩, c1, ⟨d1, d2⟩, n1, n2, n3, n4⟩ := hv
  obtain ⟨l₂, e2⟩ := h2.trace
  obtain ⟨l₃, e3⟩ := h3.trace
  obtain ⟨l₄, e4⟩ := h4.trace
  rw [e2, List.drop_left] at b2 b3 n2
  rw [e3, List.drop_left] at c1 n3
  rw [e4, List.drop_left] at d1 d2 n4
  obtain ⟨x, l₀, rfl, hx, hn⟩ := List.map_eq_cons_iff.mp c1
  obtain rfl := List.map_eq_nil_iff.mp hn
  have p1 := (Timed.Prompt.init (E := E) (i := 3)).stage (l := w₁.trace) h1 rfl a2 (by simpa [Timed.view] using a1) (d := E.hb.timer) rfl (.inl rfl)
  have p2 := p1.stage (l := l₂) h2 e2 b2 (by simpa [Timed.view] using b1) (d := E.hb.interval) rfl (.inr b3)
  have p3 := Timed.Prompt.fire (t := ⟨w₂, _, _⟩) p2 (fun p hp => by
    rcases List.mem_append.mp hp with hp | hp
    · exact p1.reachable.good.past p hp
    · obtain ⟨y, -, rfl⟩ := List.mem_map.mp hp; exact Nat.le_refl _) h3 e3 (by rw [hx]; rfl) hi
  have p4 := p3.follow (l := l₄) h4 e4 fun y hy => by simpa using List.all_eq_true.mp d1 y hy
  obtain ⟨y, hy, hy'⟩ := List.any_eq_true.mp d2
  simp only [Bool.and_eq_true, beq_iff_eq, decide_eq_true_eq] at hy'
  refine ⟨_, p4, ⟨_, List.mem_append_right _ (List.mem_map.mpr ⟨y, hy, rfl⟩), hy'⟩, ?_⟩
  show beatTimes ((((Timed.init E).log ++ _) ++ _) ++ List.map (fun x => (x, _)) [x] ++ _) = _
  have hnil : (Timed.init E).log = [] := rfl
  rw [hnil, List.nil_append]
  have app : ∀ a b : List (Rec × Nat), beatTimes (a ++ b) = beatTimes a ++ beatTimes b := fun a b => List.filterMap_append ..
  rw [app, app, app, Timed.beatTimes_const, Timed.beatTimes_const, Timed.beatTimes_const, Timed.beatTimes_const, n1, n2, n3, n4]
  show [0] ++ [] ++ [] ++ [0 + _ + _] = _
  simp

/-- The hypotheses of `c94_returns`, here with the default configuration. -/
example : ∃ t, Timed.Prompt E₁ 0 t ∧ t.w.sh.crashed = false ∧ 10 * 1000000000 < t.now := by
  obtain ⟨t, -, -, h1, h2, h3, -⟩ := c94_returns_tight E₁
  exact ⟨t, h1, h2, h3⟩

/-- Those of `c94_frequent`, with a timer of two seconds and an interval of one. -/
example : ∃ t, Timed.Prompt ⟨.client, E₀.cfg, ⟨true, 1000000000, 2000000000, []⟩, 1⟩ 3 t ∧
    (∃ p ∈ t.log, p.1.tid = 3 ∧ p.1.gor = .beatLoop) ∧ beatTimes t.log = [0, 3000000000] :=
  c94_frequent_tight rfl (by decide) (by decide)

/-- Those of `c94_waits`: a heartbeat was sent and the goroutine waits as long as it can. -/
example {E : Env} (he : E.hb.enabled = true) : ∃ t e k, Timed.Prompt E 3 t ∧ t.w.sh.crashed = false ∧
    t.w.threads[3]? = some ⟨.beatLoop, e, .op .ackSelect k⟩ ∧ t.now = E.hb.timer.toNat := by
  obtain ⟨w, h1, hv⟩ := reach_of (E := E) (cs := openingBeatOf E.mode ++ go 3 1 ++ beat (List.replicate 128 0))
    (f := fun w => (Timed.view 3 w, w.trace.all fun x => Timed.kind x.ev == 0, w.sh.crashed, w.threads[3]?.map Thread.gor))
    (v := ((some 1, true, true), true, false, some .beatLoop)) (by
      obtain ⟨mode, cfg, ⟨en, a, b, c⟩, ms⟩ := E
      simp only at he
      subst he
      cases mode <;> kernel_rfl)
  simp only [Prod.mk.injEq] at hv
  obtain ⟨a1, a2, a3, a4⟩ := hv
  have p1 := (Timed.Prompt.init (E := E) (i := 3)).stage (l := w.trace) h1 rfl a2 (by simpa [Timed.view] using a1) (d := E.hb.timer) rfl (.inl rfl)
  obtain ⟨⟨g, e, p⟩, ht, hg⟩ := Option.map_eq_some_iff.mp a4
  have hg : g = .beatLoop := hg
  subst hg
  have htag : Timed.tag p = 1 := by
    have := congrArg Prod.fst a1
    simp only [Timed.view] at this
    rw [List.getElem?_map, ht] at this
    exact Option.some.inj this
  obtain ⟨k, rfl⟩ : ∃ k, p = .op .ackSelect k := by
    cases p with
    | ret r => cases r <;> cases htag
    | op o k => cases o <;> first | (cases htag; done) | exact ⟨k, rfl⟩
  exact ⟨_, e, k, p1, a3, ht, Nat.zero_add _⟩

end M3.Conn
