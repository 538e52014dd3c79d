import Verif.Lemmas.Conn.CalmInv

/- When nothing can happen any more in a session without disturbances. -/

set_option autoImplicit false
set_option linter.unusedSimpArgs false

namespace M3.Conn.Calm

open Spec

/-- Goroutine `i` can do nothing. -/
theorem no_run {E : Env} {w : World} (hr : Idle E w) {i : Nat} {g : Gor} {h : List Ev} {o : Op} {k : Resp o → Prog (Option Gor)} {r : Resp o}
    {sh' : Shared} (hc : w.sh.crashed = false) (ht : w.threads[i]? = some ⟨g, h, .op o k⟩) (hx : Exec w.sh o r sh')
    (hm : Ev.calm ⟨o, r⟩ = true) (hu : ofUser g = false) : False := by
  obtain ⟨x, h1, h2⟩ := hr _ (.run i g h o k r hc ht hx hm)
  have : [⟨i, g, o, r⟩] = [x] := List.append_cancel_left h1
  cases this
  rw [hu] at h2; cases h2

theorem no_sync {E : Env} {w : World} (hr : Idle E w) {i j : Nat} {gi gj : Gor} {hi hj : List Ev} {oi oj : Op}
    {ki : Resp oi → Prog (Option Gor)} {kj : Resp oj → Prog (Option Gor)} {ri : Resp oi} {rj : Resp oj} {sh' : Shared}
    (hc : w.sh.crashed = false) (hij : i ≠ j) (hti : w.threads[i]? = some ⟨gi, hi, .op oi ki⟩)
    (htj : w.threads[j]? = some ⟨gj, hj, .op oj kj⟩) (hx : Sync w.sh oi ri oj rj sh') : False := by
  obtain ⟨x, h1, -⟩ := hr _ (.sync i j gi gj hi hj oi oj ki kj ri rj hc hij hti htj hx)
  have := List.append_cancel_left h1
  simp at this

theorem no_loop {E : Env} {w : World} (hr : Idle E w) {i : Nat} {g g' : Gor} {h : List Ev}
    (hc : w.sh.crashed = false) (ht : w.threads[i]? = some ⟨g, h, .ret (some g')⟩) : False := by
  obtain ⟨x, h1, -⟩ := hr _ (.loop i g g' h hc ht)
  have := congrArg List.length h1
  simp at this

/-- A goroutine with this role has an operation to do. -/
theorem pending {E : Env} {w : World} (h : Reachable E w) {ss : List G} (hl : (D E).Linked w ss) {i : Nat} {t : Thread} {s : G}
    (ht : w.threads[i]? = some t) (hs : ss[i]? = some s) (h1 : ¬ fin s) :
    (∃ o k, t.prog = .op o k ∧ Fits t.gor s ∧ ok E s o) ∨ ∃ g, t.prog = .ret (some g) ∧ s = .wait := by
  have hw := hl.2 i t s ht hs
  cases hp : t.prog with
  | op o k => rw [hp] at hw; exact .inl ⟨o, k, rfl, hw.1⟩
  | ret r =>
    rw [hp] at hw
    cases r with
    | none => exact (h1 (D_post_none.mp hw)).elim
    | some g =>
      refine .inr ⟨g, rfl, ?_⟩
      have hn := loops (hp ▸ ((Follows.reach h).2 i t ht).1)
      rcases D_post_some.mp hw with rfl | rfl | ⟨-, rfl, -⟩
      · cases g <;> first | rfl | (cases hn; done) | exact (h1 trivial).elim
      · exact (h1 trivial).elim
      · exact (h1 trivial).elim

theorem not_user {g : Gor} {s : G} (h : Fits g s) (h0 : s ≠ .off) (h1 : s ≠ .free) (h2 : s ≠ .close) : ofUser g = false := by
  cases hb : ofUser g with
  | false => rfl
  | true => rcases (fits_user h h0).1.mp hb with h | h <;> contradiction

theorem exists_role {n : Nat} {f : G → Nat} {ss : List G} (h : tot f ss = n + 1) : ∃ (i : Nat) (s : G), ss[i]? = some s ∧ f s ≠ 0 := by
  by_cases hx : ∃ s ∈ ss, f s ≠ 0
  · obtain ⟨s, hs, ht⟩ := hx
    obtain ⟨i, hi⟩ := List.getElem?_of_mem hs
    exact ⟨i, s, hi, ht⟩
  · have : tot f ss = 0 := Keep.tot_zero_of fun s hs => Classical.byContradiction fun h' => hx ⟨s, hs, h'⟩
    omega

/-- The monitor waits for a state whenever somebody else can move the connection on. -/
theorem monitor_waits {E : Env} {w : World} (h : Reachable E w) {ss : List G} {cm : Nat} (hl : (D E).Linked w ss)
    (hi : Inv 1 cm w.sh w.trace ss) (hr : Idle E w) {i : Nat} {s : G} (hs : ss[i]? = some s) (h1 : s.tok = true) (h2 : s.mon = false) :
    ∃ j g e k, i ≠ j ∧ w.threads[j]? = some ⟨g, e, .op .monSelect k⟩ := by
  obtain ⟨j, s', hj, hm⟩ := exists_role (n := 0) hi.mon
  have hm : s'.mon = true := by
    cases hb : s'.mon with
    | true => rfl
    | false => simp [monN, hb] at hm
  have hij : i ≠ j := by
    rintro rfl
    rw [hs] at hj; cases hj
    rw [h2] at hm; cases hm
  have hk := tok_zero hi.tok rfl hij hs h1 hj
  have : s' = .wait := by cases s' <;> first | rfl | (cases hm; done) | (cases hk; done)
  subst this
  obtain ⟨⟨g, e, p⟩, ht⟩ := getElem?_some_of_length hl.1.symm hj
  rcases pending h hl ht hj (fun h => h) with ⟨o, k, rfl, hf, hk⟩ | ⟨g', rfl, -⟩
  · rcases hk with rfl | rfl
    · exact ⟨j, g, e, k, hij, ht⟩
    · exact (no_run hr hi.opens.crashed ht .spawn rfl (not_user hf (by simp) (by simp) (by simp))).elim
  · exact (no_loop hr hi.opens.crashed ht).elim

theorem rest {E : Env} {w : World} (h : Reachable E w) {ss : List G} (hl : (D E).Linked w ss)
    (hi : Inv 1 (if w.sh.handed then 0 else 1) w.sh w.trace ss) (hr : Idle E w) :
    ∃ i : Nat, ss[i]? = some G.ready ∧ w.sh.inbox = [] := by
  obtain ⟨i, s, hs, ht⟩ := hi.holder
  obtain ⟨⟨g, e, p⟩, hti⟩ := getElem?_some_of_length hl.1.symm hs
  have ho := hi.opens
  have hc := ho.crashed
  have hf := hi.fact i s hs
  rcases pending h hl hti hs (by cases s <;> first | exact fun h => h | cases ht) with ⟨o, k, rfl, hfit, hok⟩ | ⟨g', -, rfl⟩
  case inr => cases ht
  have hg : s ≠ .off → s ≠ .free → s ≠ .close → ofUser g = false := not_user hfit
  have mon : ∀ x, o = .sendState x → s.mon = false → False := by
    rintro x rfl h2
    obtain ⟨j, gj, e', k', hij, htj⟩ := monitor_waits h hl hi hr hs ht h2
    exact no_sync hr hc hij hti htj .state
  cases s <;> first | (cases ht; done) | skip
  case start => exact (mon _ hok rfl).elim
  case ready =>
    refine ⟨i, hs, ?_⟩
    obtain rfl : o = .read 1500 := hok
    cases hin : w.sh.inbox with
    | nil => rfl
    | cons d q =>
      by_cases hd : d.length ≤ 1500
      · exact (no_run hr hc hti (.read ho.sctp hin hd) rfl (hg (by simp) (by simp) (by simp))).elim
      · exact (no_run hr hc hti (.readPart ho.sctp hin (by omega)) rfl (hg (by simp) (by simp) (by simp))).elim
  all_goals
    exfalso
    have hg := hg (by simp) (by simp) (by simp)
    try (cases o <;> first | (cases hok; done) | skip)
    all_goals first
      | exact mon _ rfl rfl
      | exact no_run hr hc hti (.state hf.2.2.1) rfl hg
      | exact no_run hr hc hti (.lock hf.2.2.1) rfl hg
      | exact no_run hr hc hti .unlock rfl hg
      | exact no_run hr hc hti .getSt rfl hg
      | exact no_run hr hc hti .putSt rfl hg
      | exact no_run hr hc hti .ctxDone rfl hg
      | exact no_run hr hc hti .info rfl hg
      | exact no_run hr hc hti (.write (n := 0) ho.sctp) rfl hg
      | exact no_run hr hc hti .broadcast rfl hg
      | exact no_run hr hc hti .spawn rfl hg
      | skip
  -- sendEst
  obtain ⟨rfl, hp⟩ := (show _ = _ ∧ _ ≠ _ from hok)
  obtain ⟨-, -, -, h4, -⟩ := hf
  have hh : w.sh.handed = false := by rw [h4]; exact decide_eq_false hp
  have hm := hi.main
  rw [hh] at hm
  obtain ⟨j, s', hj, hm⟩ := exists_role (n := 0) hm
  have : s' = .main := by cases s' <;> first | rfl | exact (hm rfl).elim
  subst this
  obtain ⟨⟨g', e', p'⟩, htj⟩ := getElem?_some_of_length hl.1.symm hj
  rcases pending h hl htj hj (fun h => h) with ⟨o, k', rfl, hf', hk⟩ | ⟨g', -, h⟩
  · obtain rfl : o = .estSelect := hk
    refine no_sync hr hc ?_ hti htj (.est ho.est)
    rintro rfl
    rw [hs] at hj; cases hj
  · cases h

end M3.Conn.Calm
