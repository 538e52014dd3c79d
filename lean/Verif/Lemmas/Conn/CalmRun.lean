import Verif.Spec.Talk
import Verif.Lemmas.Conn.CalmSent
import Verif.Props.Conn.Work

/- Two endpoints left to themselves: every step brings them closer to rest. -/

set_option autoImplicit false
set_option linter.unusedSimpArgs false

namespace M3.Conn.Run

open Spec

/-! ### Who does what -/

def ok (E : Env) (g : Gor) : Op → Prop
  | .spawn g' => ofUser g' = false ∧ g' ≠ .beatLoop
  | .sleepSelect => E.hb.enabled = true
  | .sendState _ | .sendErr _ | .monSelect | .sendEst | .estSelect | .sendAck | .ackSelect => ofUser g = false
  | _ => True

def D (E : Env) : Disc Unit where
  start g _ := g = .beatLoop → E.hb.enabled = true
  born _ := ()
  ok g _ o := ok E g o
  may _ _ _ _ := True
  next _ _ _ _ := ()

theorem D_ok {E : Env} {g s o} : (D E).ok g s o = ok E g o := rfl
theorem D_may {E : Env} {g s o r} : (D E).may g s o r = True := rfl
theorem D_next {E : Env} {g s o r} : (D E).next g s o r = () := rfl
theorem D_post_none {E : Env} {s} : (D E).post s none = True := rfl
theorem D_post_some {E : Env} {s g} : (D E).post s (some g) = (g = .beatLoop → E.hb.enabled = true) := rfl

open Lean Parser Tactic in
macro "run_code" : tactic =>
  `(tactic| wp_code [D_ok, D_may, D_next, D_post_none, D_post_some, ok, ofUser])

theorem good (E : Env) : (D E).Good E where
  main := nofun
  init := nofun
  monitor := nofun
  api _ := nofun
  spawn _ _ g' h := fun e => absurd e h.2
  body g s hs := by
    have hs : g = .beatLoop → E.hb.enabled = true := hs
    cases g with
    | packet raw =>
      rw [body, packet_eq]
      cases hp : M3UA.parse raw with
      | ok m => cases m <;> run_code <;> simp
      | _ => run_code
    | data m => run_code
    | monitorLoop =>
      obtain ⟨mode, cfg, hb, ms⟩ := E
      cases mode <;> run_code <;> simp
    | api c => cases c <;> run_code <;> simp
    | _ => run_code <;> simp_all

theorem pres (E : Env) : Pres (D E) fun _ _ _ => True where
  env _ _ _ _ _ _ := trivial
  call _ _ _ _ _ _ := trivial
  run _ _ _ _ _ _ _ _ _ _ _ _ _ := ⟨trivial, trivial⟩
  sync _ _ _ _ _ _ _ _ _ _ _ _ _ _ _ _ _ _ _ _ _ := ⟨trivial, trivial, trivial⟩
  crash _ _ _ _ _ _ _ _ _ _ _ := trivial

/-- The operation a goroutine is about to perform. -/
theorem pending {E : Env} {w : World} (h : Reachable E w) {i : Nat} {g : Gor} {e : List Ev} {o : Op} {k : Resp o → Prog (Option Gor)}
    (ht : w.threads[i]? = some ⟨g, e, .op o k⟩) : ok E g o := by
  obtain ⟨ss, hl, -⟩ := Disc.reach (good E) (pres E) trivial h
  obtain ⟨s, hs⟩ := getElem?_some_of_length hl.1 ht
  exact (hl.2 i _ s ht hs).1

/-- Who takes part in an exchange over a channel. -/
theorem sync_own {E : Env} {w : World} (h : Reachable E w) {i j : Nat} {gi gj : Gor} {ei ej : List Ev} {oi oj : Op}
    {ki : Resp oi → Prog (Option Gor)} {kj : Resp oj → Prog (Option Gor)} {ri : Resp oi} {rj : Resp oj} {sh sh' : Shared}
    (hi : w.threads[i]? = some ⟨gi, ei, .op oi ki⟩) (hj : w.threads[j]? = some ⟨gj, ej, .op oj kj⟩) (hx : Sync sh oi ri oj rj sh') :
    ofUser gi = false ∧ ofUser gj = false := by
  have h1 := pending h hi
  have h2 := pending h hj
  cases hx <;> exact ⟨h1, h2⟩

/-- Without heartbeats no heartbeat interval elapses. -/
theorem no_beats {E : Env} (hE : E.hb.enabled = false) {w : World} (h : Reachable E w) : beats w.trace = 0 := by
  unfold Reachable at h
  generalize hi : init E = i at h
  induction h with
  | refl => subst hi; rfl
  | @tail b c hp hs ih =>
    subst hi
    obtain ⟨sh, ts, tr⟩ := b
    cases hs with
    | run i g e o k r hc ht hx =>
      have hk := pending hp ht
      have h1 : beats [(⟨i, g, o, r⟩ : Rec)] = 0 := by
        cases o <;> first | rfl | skip
        rw [ok, hE] at hk
        cases hk
      simp only [beats, List.countP_append] at ih h1 ⊢
      omega
    | sync i j gi gj hi hj oi oj ki kj ri rj hc hij hti htj hx =>
      have h1 : beats [(⟨i, gi, oi, ri⟩ : Rec), ⟨j, gj, oj, rj⟩] = 0 := by
        clear hti htj
        cases hx <;> rfl
      simp only [beats, List.countP_append] at ih h1 ⊢
      omega
    | _ => exact ih

/-- No goroutine starts with the end of a loop. -/
theorem fresh_op {E : Env} {g g' : Gor} : body E g ≠ .ret (some g') := by
  intro h
  have hp : Path (body E g) [] (.ret (some g')) := by rw [h]; exact .nil _
  obtain ⟨e, h', h1, -⟩ := hp.nonempty
  cases h1

/-- Nobody but the user calls methods. -/
theorem work_calls {E : Env} {w w' : World} (hr : Reachable E w) (h : Work E w w') : userCalls w' = userCalls w := by
  have hf := (Follows.reach hr).2
  obtain ⟨sh, ts, tr⟩ := w
  cases h with
  | run i g h o k r hc ht hx hm =>
    have ha := Fuel.gor_set (ts := ts) (t := ⟨g, h, .op o k⟩) (t' := ⟨g, h ++ [⟨o, r⟩], k r⟩) ht rfl
    have hk := pending hr ht
    have hz : ((spawned o).map fun g => (Thread.fresh E g).gor).countP ofUser = 0 := by
      cases o <;> first | rfl | skip
      simp only [spawned, List.map_cons, List.map_nil, Thread.fresh]
      rw [List.countP_cons_of_neg (by rw [hk.1]; simp)]
      rfl
    simp only [userCalls, List.map_append, List.countP_append, List.map_map]
    rw [ha]
    exact (congrArg (_ + ·) hz).trans (Nat.add_zero _)
  | sync i j gi gj hi hj oi oj ki kj ri rj hc hij hti htj hx =>
    have ha := Fuel.gor_set (ts := ts) (t := ⟨gi, hi, .op oi ki⟩) (t' := ⟨gi, hi ++ [⟨oi, ri⟩], ki ri⟩) hti rfl
    have htj' : (ts.set i ⟨gi, hi ++ [⟨oi, ri⟩], ki ri⟩)[j]? = some ⟨gj, hj, .op oj kj⟩ := by
      rw [List.getElem?_set_ne hij]
      exact htj
    have hb := Fuel.gor_set (t' := ⟨gj, hj ++ [⟨oj, rj⟩], kj rj⟩) htj' rfl
    simp only [userCalls]
    rw [hb, ha]
  | loop i g g' h hc ht =>
    have hu := Fuel.loop_user (hf i _ ht).1
    have hl := Fuel.calls_loop (T := { Fuel.gors with budget := fun _ => 1 }) (t := ⟨g, h, .ret (some g')⟩) (t' := Thread.fresh E g') ht hu.1 hu.2
    simp only [Fuel.Tariff.callsIn, tot_one, Nat.one_mul] at hl
    exact hl
  | crash => rfl

theorem filter_set {α : Type} {p : α → Bool} {l : List α} {i : Nat} {x y : α} (hy : l[i]? = some y) (h1 : p y = false) (h2 : p x = false) :
    (l.set i x).filter p = l.filter p := by
  induction l generalizing i with
  | nil => rfl
  | cons a l ih =>
    cases i with
    | zero =>
      cases hy
      rw [List.set_cons_zero, List.filter_cons_of_neg (by rw [h2]; simp), List.filter_cons_of_neg (by rw [h1]; simp)]
    | succ i =>
      rw [List.set_cons_succ, List.filter_cons, List.filter_cons, ih hy]

/-- The calls of the user stay what they are. -/
theorem work_users {E : Env} {w w' : World} (hr : Reachable E w) (h : Work E w w') :
    (w'.threads.map Thread.gor).filter ofUser = (w.threads.map Thread.gor).filter ofUser := by
  have hf := (Follows.reach hr).2
  obtain ⟨sh, ts, tr⟩ := w
  cases h with
  | run i g h o k r hc ht hx hm =>
    have ha := Fuel.gor_set (ts := ts) (t := ⟨g, h, .op o k⟩) (t' := ⟨g, h ++ [⟨o, r⟩], k r⟩) ht rfl
    have hk := pending hr ht
    have hz : ((spawned o).map fun g => (Thread.fresh E g).gor).filter ofUser = [] := by
      cases o <;> first | rfl | skip
      simp only [spawned, List.map_cons, List.map_nil, Thread.fresh]
      rw [List.filter_cons_of_neg (by rw [hk.1]; simp)]
      rfl
    simp only [List.map_append, List.filter_append, List.map_map]
    rw [ha]
    exact (congrArg (_ ++ ·) hz).trans (List.append_nil _)
  | sync i j gi gj hi hj oi oj ki kj ri rj hc hij hti htj hx =>
    have ha := Fuel.gor_set (ts := ts) (t := ⟨gi, hi, .op oi ki⟩) (t' := ⟨gi, hi ++ [⟨oi, ri⟩], ki ri⟩) hti rfl
    have htj' : (ts.set i ⟨gi, hi ++ [⟨oi, ri⟩], ki ri⟩)[j]? = some ⟨gj, hj, .op oj kj⟩ := by
      rw [List.getElem?_set_ne hij]
      exact htj
    have hb := Fuel.gor_set (t' := ⟨gj, hj ++ [⟨oj, rj⟩], kj rj⟩) htj' rfl
    simp only
    rw [hb, ha]
  | loop i g g' h hc ht =>
    have hu := Fuel.loop_user (hf i _ ht).1
    simp only [List.map_set]
    exact filter_set (y := g) (by rw [List.getElem?_map, ht]; rfl) hu.1 hu.2
  | crash => rfl

/-- SCTP accepts what is written. -/
theorem work_answers {E : Env} {w w' : World} (h : Work E w w') (ha : ∀ x ∈ sends w.trace, x.answer ≠ none) :
    ∀ x ∈ sends w'.trace, x.answer ≠ none := by
  obtain ⟨sh, ts, tr⟩ := w
  cases h with
  | run i g h o k r hc ht hx hm =>
    intro x hx'
    simp only [sends_append] at hx'
    rcases List.mem_append.mp hx' with hx' | hx'
    · exact ha x hx'
    · obtain ⟨y, hy, hs⟩ := List.mem_filterMap.mp hx'
      cases List.mem_singleton.mp hy
      cases o <;> first | (cases hs; done) | skip
      cases hs
      intro e
      simp only at e
      subst e
      cases hm
  | sync i j gi gj hi hj oi oj ki kj ri rj hc hij hti htj hx =>
    have : sends [(⟨i, gi, oi, ri⟩ : Rec), ⟨j, gj, oj, rj⟩] = [] := by
      clear hti htj
      cases hx <;> rfl
    simp only [sends_append, this, List.append_nil]
    exact ha
  | loop => exact ha
  | crash => exact ha

/-! ### Every step counts -/

/-- The goroutine is at the end of a round of its loop. -/
def around (t : Thread) : Nat :=
  match t.prog with
  | .ret (some _) => 1
  | _ => 0

theorem around_le (t : Thread) : around t ≤ 1 := by
  unfold around
  split <;> omega

theorem around_fresh (E : Env) (g : Gor) : around (Thread.fresh E g) = 0 := by
  unfold around
  split
  · rename_i g' h
    exact absurd h fresh_op
  · rfl

theorem tot_fresh (E : Env) (l : List Gor) : tot around (l.map (Thread.fresh E)) = 0 := by
  induction l with
  | nil => rfl
  | cons g l ih => rw [List.map_cons, tot_cons, ih, around_fresh]

/-- Twice the operations done, less the loops that are to be entered again. -/
theorem step_count {E : Env} {w w' : World} (h : Step E w w') :
    2 * w.trace.length + tot around w'.threads ≤ 2 * w'.trace.length + tot around w.threads := by
  obtain ⟨sh, ts, tr⟩ := w
  cases h with
  | env => exact Nat.le_refl _
  | call c => simp only [tot_append, tot_cons, tot_nil, around_fresh]; omega
  | run i g h o k r hc ht hx =>
    have h1 := tot_set around ⟨g, h ++ [⟨o, r⟩], k r⟩ ht
    have h2 := around_le ⟨g, h ++ [⟨o, r⟩], k r⟩
    simp only [tot_append, tot_fresh, List.length_append, List.length_singleton] at h1 ⊢
    omega
  | sync i j gi gj hi hj oi oj ki kj ri rj hc hij hti htj hx =>
    have h1 := tot_set around ⟨gi, hi ++ [⟨oi, ri⟩], ki ri⟩ hti
    have h2 := around_le ⟨gi, hi ++ [⟨oi, ri⟩], ki ri⟩
    have htj' : (ts.set i ⟨gi, hi ++ [⟨oi, ri⟩], ki ri⟩)[j]? = some ⟨gj, hj, .op oj kj⟩ := by
      rw [List.getElem?_set_ne hij]
      exact htj
    have h3 := tot_set around ⟨gj, hj ++ [⟨oj, rj⟩], kj rj⟩ htj'
    have h4 := around_le ⟨gj, hj ++ [⟨oj, rj⟩], kj rj⟩
    simp only [List.length_append, List.length_cons, List.length_nil] at h1 h3 ⊢
    omega
  | loop i g g' h hc ht =>
    have h1 := tot_set around (Thread.fresh E g') ht
    rw [around_fresh] at h1
    simp only at h1 ⊢
    omega
  | crash => exact Nat.le_refl _

theorem around_bound {E : Env} {w : World} (h : Reachable E w) : tot around w.threads ≤ 2 * w.trace.length := by
  unfold Reachable at h
  generalize hi : init E = i at h
  induction h with
  | refl =>
    subst hi
    have : (init E).threads = [.main, .start, .monitor].map (Thread.fresh E) := rfl
    rw [this, tot_fresh]
    exact Nat.zero_le _
  | tail _ hs ih => have := step_count hs; omega

theorem work_count {E : Env} {w w' : World} (h : Work E w w') (hc' : w'.sh.crashed = false) :
    2 * w.trace.length + tot around w'.threads + 1 ≤ 2 * w'.trace.length + tot around w.threads := by
  obtain ⟨sh, ts, tr⟩ := w
  cases h with
  | run i g h o k r hc ht hx =>
    have h1 := tot_set around ⟨g, h ++ [⟨o, r⟩], k r⟩ ht
    have h2 := around_le ⟨g, h ++ [⟨o, r⟩], k r⟩
    simp only [tot_append, tot_fresh, List.length_append, List.length_singleton] at h1 ⊢
    omega
  | sync i j gi gj hi hj oi oj ki kj ri rj hc hij hti htj hx =>
    have h1 := tot_set around ⟨gi, hi ++ [⟨oi, ri⟩], ki ri⟩ hti
    have h2 := around_le ⟨gi, hi ++ [⟨oi, ri⟩], ki ri⟩
    have htj' : (ts.set i ⟨gi, hi ++ [⟨oi, ri⟩], ki ri⟩)[j]? = some ⟨gj, hj, .op oj kj⟩ := by
      rw [List.getElem?_set_ne hij]
      exact htj
    have h3 := tot_set around ⟨gj, hj ++ [⟨oj, rj⟩], kj rj⟩ htj'
    have h4 := around_le ⟨gj, hj ++ [⟨oj, rj⟩], kj rj⟩
    simp only [List.length_append, List.length_cons, List.length_nil] at h1 h3 ⊢
    omega
  | loop i g g' h hc ht =>
    have h1 := tot_set around (Thread.fresh E g') ht
    rw [around_fresh] at h1
    have h2 : around ⟨g, h, .ret (some g')⟩ = 1 := rfl
    simp only [h2] at h1 ⊢
    omega
  | crash => cases hc'

/-- The work of an endpoint is not the arrival of a datagram. -/
theorem work_local {E : Env} {w w' : World} (h : Work E w w') : Local E w w' := by
  refine ⟨h.step, fun d e => ?_⟩
  subst e
  obtain ⟨sh, ts, tr⟩ := w
  have h1 : ((⟨sh, ts, tr⟩ : World).deliver d).sh.crashed = sh.crashed := rfl
  have := work_count h (by
    rw [h1]
    exact h.step.notCrashed)
  simp only [World.deliver] at this
  omega

theorem work_step {Ea Eb : Env} {p q : Link} (h : Link.Work Ea Eb p q) : Link.Step Ea Eb p q := by
  cases h with
  | a h => exact .a (work_local h)
  | b h => exact .b (work_local h)
  | toB h1 h2 => exact .toB h1 h2
  | toA h1 h2 => exact .toA h1 h2

theorem work_flip {Ea Eb : Env} {p q : Link} (h : Link.Work Ea Eb p q) : Link.Work Eb Ea p.flip q.flip := by
  cases h with
  | a h => exact .b (p := Link.flip p) h
  | b h => exact .a (p := Link.flip p) h
  | toB h1 h2 => exact .toA (p := Link.flip p) h1 h2
  | toA h1 h2 => exact .toB (p := Link.flip p) h1 h2

/-! ### What keeps the peace -/

theorem work_ctx {E : Env} {w w' : World} (h : Work E w w') : w'.sh.ctxDone = w.sh.ctxDone := by
  obtain ⟨sh, ts, tr⟩ := w
  cases h with
  | run i g h o k r hc ht hx hm => clear ht; cases hx <;> rfl
  | sync i j gi gj hi hj oi oj ki kj ri rj hc hij hti htj hx => clear hti htj; cases hx <;> rfl
  | loop => rfl
  | crash => rfl

/-- The library's own work does not disturb an endpoint. -/
theorem own_peaceful {E : Env} {w w' : World} (hr : Reachable E w) (hp : Peaceful w) (h : Work E w w') :
    Peaceful w' ∨ ∃ x, w'.trace = w.trace ++ [x] ∧ ofUser x.gor = true := by
  have hx := work_ctx h
  obtain ⟨sh, ts, tr⟩ := w
  have add : ∀ {w' : World} (l : List Rec), w'.sh.ctxDone = sh.ctxDone → w'.trace = tr ++ l →
      (∀ x ∈ l, ofUser x.gor = false ∧ x.ev.calm = true) → Peaceful w' := by
    intro w' l h1 h2 h3
    have hm : ∀ {x}, x ∈ w'.trace → x ∈ tr ∨ x ∈ l := fun hx => by rw [h2] at hx; exact List.mem_append.mp hx
    refine ⟨h1.trans hp.ctx, fun x hx => ?_, fun x hx hu => ?_, fun x hx hu => ?_⟩
    · rcases hm hx with hx | hx
      · exact hp.user x hx
      · intro e; have := (h3 x hx).1; rw [e] at this; cases this
    · rcases hm hx with hx | hx
      · exact hp.calm x hx hu
      · exact (h3 x hx).2
    · rcases hm hx with hx | hx
      · exact hp.talk x hx hu
      · rw [(h3 x hx).1] at hu; cases hu
  cases h with
  | run i g h o k r hc ht he hm =>
    cases hu : ofUser g with
    | true => exact .inr ⟨_, rfl, hu⟩
    | false =>
      refine .inl (add _ hx rfl fun x hx => ?_)
      rw [List.mem_singleton.mp hx]
      exact ⟨hu, hm⟩
  | sync i j gi gj hi hj oi oj ki kj ri rj hc hij hti htj he =>
    obtain ⟨h1, h2⟩ := sync_own hr hti htj he
    refine .inl (add _ hx rfl fun x hx => ?_)
    have hcalm : Ev.calm ⟨oi, ri⟩ = true ∧ Ev.calm ⟨oj, rj⟩ = true := by
      clear hti htj
      cases he <;> exact ⟨rfl, rfl⟩
    rcases List.mem_cons.mp hx with rfl | hx
    · exact ⟨h1, hcalm.1⟩
    · rw [List.mem_singleton.mp hx]
      exact ⟨h2, hcalm.2⟩
  | loop i g g' h hc ht => exact .inl (add [] hx (List.append_nil _).symm fun x hx => by cases hx)
  | crash i g h o k hc ht he => exact .inl (add [] hx (List.append_nil _).symm fun x hx => by cases hx)

theorem work_out {E : Env} {w w' : World} (h : Work E w w') : w.out <+: w'.out := by
  obtain ⟨l, hl⟩ := h.step.trace
  exact ⟨(sends l).map (·.bytes), by rw [World.out, World.out, hl, sends_append, List.map_append]⟩

/-! ### The calls of the user -/

/-- Once the connection has been handed over it is active. -/
theorem handed_active {E : Env} {w : World} (hE : E.maxStream ≠ 0) (h : Reachable E w) (hu : Undisturbed E.mode w)
    (hq : Calm.Still E w.trace) {i : Nat} {t : Thread} (ht : w.threads[i]? = some t) (hg : ofUser t.gor = true)
    (hc : t.gor ≠ .api .close) (hp : t.prog ≠ .ret none) : w.sh.st = .active := by
  obtain ⟨ss, hl, hi, hj⟩ := Calm.roles_sent hE h hu hq
  obtain ⟨s, hs⟩ := getElem?_some_of_length hl.1 ht
  have hf := hi.fact i s hs
  have hw := hl.2 i t s ht hs
  have hfree : s = .free := by
    obtain ⟨g, e, p⟩ := t
    cases p with
    | op o k =>
      have hfit := hw.1.1
      have hoff : s ≠ .off := by rintro rfl; exact hf.elim
      rcases (Calm.fits_user hfit hoff).1.mp hg with h | h
      · exact h
      · exact absurd ((Calm.fits_user hfit hoff).2 h) hc
    | ret r =>
      cases r with
      | none => exact (hp rfl).elim
      | some g' => cases (Fuel.loop_user ((Follows.reach h).2 i _ ht).1).1.symm.trans hg
  subst hfree
  have hh := hj.free i hs
  obtain ⟨j, s, hsj, htok⟩ := hi.holder
  have hf := hi.fact j s hsj
  have act : ∀ n, 3 ≤ n → stageAt (n - 1) = .active := fun n h => Calm.stage_active (by omega)
  cases s <;> first | (cases htok; done) | skip
  all_goals simp only [Calm.Fact, hh] at hf
  · cases hf.2.2.2
  · rw [hf.2.1]; exact act _ (of_decide_eq_true hf.2.2.2.symm)
  · rw [hf.2.1]; exact act _ (of_decide_eq_true hf.2.2.2.symm)
  · rw [hf.2.1]; exact act _ (of_decide_eq_true hf.2.2.2.symm)
  · rw [hf.2.1]; exact act _ (of_decide_eq_true hf.2.2.2.symm)
  · rw [hf.2.1]; exact act _ (of_decide_eq_true hf.2.2.2.1.symm)
  · rw [hf.2.1]; exact hf.2.2.2.2 (of_decide_eq_true hf.2.2.2.1.symm)
  · cases hf.2.2.2.1
  · rw [hf.1]; exact Calm.stage_active (of_decide_eq_true hf.2.2.symm)
  · rw [hf.2.1]; exact act _ (of_decide_eq_true hf.2.2.2.symm)

/-- What an endpoint was before it was undisturbed. -/
theorem before {E : Env} {w w' : World} (h : Step E w w') (hu : Undisturbed E.mode w') (hq : Calm.Still E w'.trace) :
    Undisturbed E.mode w ∧ Calm.Still E w.trace := by
  obtain ⟨l, hl⟩ := h.trace
  refine ⟨?_, Calm.still_before (l := l) (hl ▸ hq)⟩
  have hm : ∀ {x}, x ∈ w.trace → x ∈ w'.trace := fun hx => by rw [hl]; exact List.mem_append_left _ hx
  refine ⟨?_, ?_, fun x hx => hu.user x (hm hx), fun x hx => hu.calm x (hm hx)⟩
  · have hc : w'.sh.ctxDone = false → w.sh.ctxDone = false := by
      cases h with
      | env _ he => cases he <;> first | exact id | (intro h; cases h)
      | run i g hist o k r _ ht hx => exact Keep.ctx_mono hx
      | sync i j gi gj hi hj oi oj ki kj ri rj _ _ _ _ hx => cases hx <;> exact id
      | _ => exact id
    exact hc hu.ctx
  · have := hu.peer
    rw [hl, Flow.receives_append] at this
    exact Calm.orderly_prefix this

/-- The user never sees another state than "active". -/
theorem sees_active {E : Env} {w : World} (hE : E.maxStream ≠ 0) (h : Reachable E w) (hu : Undisturbed E.mode w)
    (hq : Calm.Still E w.trace) : ∀ x ∈ w.trace, ofUser x.gor = true → ∀ s, observed? x.ev = some s → s = .active := by
  unfold Reachable at h
  generalize hi : init E = i at h
  induction h with
  | refl => subst hi; intro x hx; cases hx
  | @tail b c hp hs ih =>
    subst hi
    obtain ⟨hu', hq'⟩ := before hs hu hq
    have ih := ih hu' hq'
    obtain ⟨sh, ts, tr⟩ := b
    cases hs with
    | run i g e o k r hc ht hx =>
      intro x hx' hg s ho
      rcases List.mem_append.mp hx' with hx' | hx'
      · exact ih x hx' hg s ho
      · cases List.mem_singleton.mp hx'
        have hcl := hu.user _ (List.mem_append_right _ (List.mem_singleton.mpr rfl))
        have := handed_active hE hp hu' hq' ht hg hcl (by simp)
        cases o <;> first | (cases ho; done) | skip
        clear ht
        cases hx
        cases ho
        exact this
    | sync i j gi gj hi hj oi oj ki kj ri rj hc hij hti htj hx =>
      intro x hx' hg s ho
      rcases List.mem_append.mp hx' with hx' | hx'
      · exact ih x hx' hg s ho
      · have hn : observed? ⟨oi, ri⟩ = none ∧ observed? ⟨oj, rj⟩ = none := by
          clear hti htj
          cases hx <;> exact ⟨rfl, rfl⟩
        rcases List.mem_cons.mp hx' with rfl | hx'
        · cases hn.1.symm.trans ho
        · cases List.mem_singleton.mp hx'
          cases hn.2.symm.trans ho
    | _ => exact ih

/-- What a call does next. -/
def Next (E : Env) (c : Api) : Op → Prop
  | .intn n => n ≠ 0
  | .write d _ => meant E.cfg c d
  | .recvData => c = .readPD ∨ ∃ n, c = .read n
  | _ => True

theorem next_op {E : Env} (hE : E.maxStream ≠ 0) {w : World} (h : Reachable E w) {i : Nat} {c : Api} {e : List Ev} {o : Op}
    {k : Resp o → Prog (Option Gor)} (ht : w.threads[i]? = some ⟨.api c, e, .op o k⟩) : Next E c o := by
  have hu : ∀ b, dataWith E.cfg (tv (some (userPD E b))) = dataOf E.cfg b := fun b => by rw [← dataMsg_wire, userPD_wire]
  have hm : E.maxStream.toNat ≠ 0 := fun h => hE (UInt16.toNat.inj h)
  have hw : WP (Hist fun _ o => Next E c o) (.api c) (fun _ _ => True) [] (body E (.api c)) := by
    cases c
    all_goals try wp_code [Hist.ok_eq, Hist.may_eq, Hist.next_eq, Next, meant, dataMsg_wire]
    all_goals first | exact fun _ _ => M3UA.encodes_wire _ | simp +contextual [hu, hm] | skip
  obtain ⟨hp, ho⟩ := Follows.once h ht rfl rfl
  have hm : (w.of i).map Rec.ev = e := by
    rw [ho, List.map_map]
    exact List.map_id _
  exact (wp_op.mp (Hist.now hw (hm ▸ Hist.real_of h i) hp)).1

end M3.Conn.Run
