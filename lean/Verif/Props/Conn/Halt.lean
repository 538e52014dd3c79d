import Verif.Lemmas.Conn.Halt
import Verif.Lemmas.Conn.CalmRun
import Verif.Lemmas.Conn.Lock
import Verif.Props.Conn.Hang
import Verif.Props.Conn.Work

/- Every way in which a connection can come to rest: C89. -/

set_option autoImplicit false
set_option linter.unusedSimpArgs false

namespace M3.Conn

open Spec

/-- C89: a connection that does nothing by itself any more is in one of four situations. Either it works and waits for a datagram, or the
monitor has returned and the association is closed, or it is deaf because of the last datagram it received, or it is locked up because it
became active after `Dial` or `Accept` had returned. Nothing else can happen. -/
theorem c89_rest {E : Env} {w : World} (h : Reachable E w) (hq : Halted E w) : Listening w ∨ Deafened w ∨ LockedUp w ∨ Over w := by
  have h3 := Halt.third h
  obtain ⟨⟨g, e, p⟩, ht⟩ : ∃ t, w.threads[2]? = some t := ⟨_, List.getElem?_eq_getElem (by omega)⟩
  have hfree : (∀ k, p ≠ .op .sendEst k) → w.sh.locked = false := fun hp => Halt.bool_not fun hl => by
    obtain ⟨e', k', h'⟩ := Halt.locked h hq hl
    rw [ht] at h'; cases h'
    exact hp _ rfl
  cases p with
  | ret r =>
    cases r with
    | some g' => exact (Halt.no_loop hq ht).elim
    | none => exact .inr (.inr (.inr ⟨⟨g, e, ht⟩, Halt.over h ht, hfree nofun⟩))
  | op o k =>
    have hwt := Halt.waits hq ht
    rcases Halt.monitor h hq ht with rfl | rfl | rfl
    · exact .inl ⟨⟨2, _, k, ht, rfl⟩, hwt.1, hwt.2, hfree (by simp)⟩
    · exact .inr (.inl ⟨⟨2, _, k, ht, rfl⟩, hwt.1, hfree (by simp), Halt.deaf h hq ht⟩)
    · refine .inr (.inr (.inl ?_))
      obtain ⟨ss, hl, hi⟩ := Lock.reach h
      obtain ⟨s, hs⟩ := getElem?_some_of_length hl.1 ht
      have hok := (wp_op.mp (hl.2 2 _ s ht hs)).1
      have hm : s.ph = .must := hok.1.2
      have hst := hi.known 2 s hs
      rw [hm] at hst
      refine ⟨⟨2, _, k, ht, rfl⟩, hi.locked hs (by rw [hm]; simp), hst, ?_⟩
      obtain ⟨e', hmn⟩ := Halt.main h hq hwt.2
      obtain ⟨r, rest, hop, hre⟩ := c53_ends h hmn rfl
      rw [hre rfl, List.append_nil] at hop
      have hmem : ∀ ev, ev ∈ (w.of 0).map Rec.ev → ∃ x ∈ w.trace, x.ev = ev := by
        intro ev hev
        obtain ⟨x, hx, rfl⟩ := List.mem_map.mp hev
        exact ⟨x, (List.mem_filter.mp hx).1, rfl⟩
      cases r with
      | conn =>
        obtain ⟨x, hx, he⟩ := hmem ⟨.opened .conn, ()⟩ (by rw [show (w.of 0).map Rec.ev = _ from hop]; simp)
        exact ⟨x, hx, .inl he⟩
      | timeout =>
        obtain ⟨b, hop⟩ := hop
        obtain ⟨x, hx, he⟩ := hmem ⟨.opened .timeout, ()⟩ (by rw [hop]; simp)
        exact ⟨x, hx, .inr he⟩
      | failedToEstablish =>
        obtain ⟨b, hop⟩ := hop
        obtain ⟨x, hx, he⟩ := hmem ⟨.estSelect, EstEv.closed⟩ (by rw [hop]; simp)
        have := Halt.est_closed h hx he
        rw [hwt.1] at this; cases this

/-- What distinguishes the four situations. -/
def Halt.view (w : World) : Bool × Bool × Bool × Bool × Bool :=
  (haltedB w, w.sh.locked, w.sh.sctpClosed, isAt w (fun o => match o with | .read _ => true | _ => false),
    isAt w (fun o => match o with | .monSelect => true | _ => false))

/-- C89: each of the four situations does occur, whatever the configuration and the mode: after ASP Active Ack; then after an octet that is
no message; after the connection became inactive and active again; after the context was cancelled. -/
theorem c89_occurs (E : Env) : (∃ w, Reachable E w ∧ Halted E w ∧ Listening w) ∧ (∃ w, Reachable E w ∧ Halted E w ∧ Deafened w) ∧
    (∃ w, Reachable E w ∧ Halted E w ∧ LockedUp w) ∧ (∃ w, Reachable E w ∧ Halted E w ∧ Over w) := by
  have get : ∀ (cs : List Choice) (a b c d : Bool), (play (body' E) (init E) cs).map Halt.view = some (true, a, b, c, d) →
      ∃ w, Reachable E w ∧ Halted E w ∧ w.sh.locked = a ∧ w.sh.sctpClosed = b ∧ (w.at (.read 1500) → c = true) ∧ (w.at .monSelect → d = true) := by
    intro cs a b c d h
    obtain ⟨w, hr, hv⟩ := reach_of h
    simp only [Halt.view, Prod.mk.injEq] at hv
    obtain ⟨h1, h2, h3, h4, h5⟩ := hv
    exact ⟨w, hr, Halt.halted_of h1, h2, h3, fun ha => h4 ▸ Halt.isAt_of ha rfl, fun ha => h5 ▸ Halt.isAt_of ha rfl⟩
  refine ⟨?_, ?_, ?_, ?_⟩
  · obtain ⟨w, hr, hq, h1, h2, h3, h4⟩ := get (opening E.mode ++ go 3 1) false false true false (by
      obtain ⟨mode, cfg, hb, ms⟩ := E
      cases mode <;> kernel_rfl)
    refine ⟨w, hr, hq, ?_⟩
    rcases c89_rest hr hq with h | h | h | h
    · exact h
    · cases h4 h.waits
    · cases h1.symm.trans h.lock
    · cases h2.symm.trans h.sctp
  · obtain ⟨w, hr, hq, h1, h2, h3, h4⟩ := get (opening E.mode ++ [.deliver [0]] ++ go 2 2 ++ [.loop 2] ++ go 3 1) false false false true (by
      obtain ⟨mode, cfg, hb, ms⟩ := E
      cases mode <;> kernel_rfl)
    refine ⟨w, hr, hq, ?_⟩
    rcases c89_rest hr hq with h | h | h | h
    · cases h3 h.reads
    · exact h
    · cases h1.symm.trans h.lock
    · cases h2.symm.trans h.sctp
  · obtain ⟨w, hr, hq, h1, h2, h3, h4⟩ := get (opening E.mode ++ [.deliver inactiveAck] ++ go 2 2 ++ [.loop 2] ++ go 5 2 ++ [.sync 5 2] ++
        (match E.mode with
        | .client => go 2 6
        | .server => go 2 4) ++ [.deliver ackMsg] ++ go 2 2 ++ [.loop 2] ++ go 6 2 ++ [.sync 6 2] ++ go 2 3 ++ go 3 1) true false false false (by
      obtain ⟨mode, cfg, hb, ms⟩ := E
      cases mode <;> kernel_rfl)
    refine ⟨w, hr, hq, ?_⟩
    rcases c89_rest hr hq with h | h | h | h
    · cases h1.symm.trans h.lock
    · cases h1.symm.trans h.lock
    · exact h
    · cases h1.symm.trans h.lock
  · obtain ⟨w, hr, hq, h1, h2, h3, h4⟩ := get (opening E.mode ++ [.cancel, .deliver inactiveAck] ++ go 2 2 ++ [.loop 2] ++ go 2 10 ++ go 3 1 ++ go 5 1)
        false true false false (by
      obtain ⟨mode, cfg, hb, ms⟩ := E
      cases mode <;> kernel_rfl)
    refine ⟨w, hr, hq, ?_⟩
    rcases c89_rest hr hq with h | h | h | h
    · cases h2.symm.trans h.sctp
    · cases h4 h.waits
    · cases h1.symm.trans h.lock
    · exact h

/-- C89: a connection for which `Dial` or `Accept` gave up can lock up, too: the goroutine that runs `monitor` then stays for ever, although
the association is closed. -/
theorem c89_timeout (E : Env) : ∃ w, Reachable E w ∧ Halted E w ∧ LockedUp w ∧ w.sh.sctpClosed = true ∧ w.sh.handed = false := by
  have h : (play (body' E) (init E) (boot E.mode ++ [.deliver ackMsg] ++ go 2 2 ++ [.loop 2] ++ go 4 2 ++ [.sync 4 2] ++ go 2 2 ++
      [.loop 2, .sync 4 2] ++ [.run 0 .timer] ++ go 0 2 ++ go 2 3 ++ go 3 1)).map (fun w => (Halt.haltedB w, w.sh.locked, w.sh.sctpClosed, w.sh.handed)) =
      some (true, true, true, false) := by
    obtain ⟨mode, cfg, hb, ms⟩ := E
    cases mode <;> kernel_rfl
  obtain ⟨w, hr, hv⟩ := reach_of h
  simp only [Prod.mk.injEq] at hv
  obtain ⟨h1, h2, h3, h4⟩ := hv
  have hq : Halted E w := Halt.halted_of h1
  refine ⟨w, hr, hq, ?_, h3, h4⟩
  rcases c89_rest hr hq with h | h | h | h
  · cases h2.symm.trans h.lock
  · cases h2.symm.trans h.lock
  · exact h
  · cases h2.symm.trans h.lock

/-- A call of the user returns exactly once, at the end. -/
theorem Halt.call (E : Env) (c : Api) : WP (Hist fun s o => s.filterMap returned? = [] ∧ (o = .state ∨ o = .lock → needsState c = true)) (.api c)
    (fun s _ => ∃ r, s.filterMap returned? = [r]) [] (body E (.api c)) := by
  cases c <;> wp_code [Hist.ok_eq, Hist.may_eq, Hist.next_eq, List.nil_append, List.append_assoc, List.cons_append, List.filterMap_cons,
    List.filterMap_nil, returned?, needsState] <;> simp

/-- C89: in a connection that does nothing by itself any more, every call of the user has returned, or it is a `Read` or `ReadPD` that
waits because there is nothing to read, or it waits because the connection is locked up. -/
theorem c89_calls {E : Env} {w : World} (h : Reachable E w) (hq : Halted E w) {i : Nat} {t : Thread} (ht : w.threads[i]? = some t)
    {c : Api} (hc : t.gor = .api c) :
    (∃ r, returns (w.of i) = [r]) ∨
    (returns (w.of i) = [] ∧ ((c = .readPD ∨ ∃ n, c = .read n) ∧ w.sh.dataQ = [] ∧ w.sh.dataClosed = false ∨ LockedUp w ∧ needsState c = true)) := by
  obtain ⟨g, e, p⟩ := t
  obtain rfl : g = .api c := hc
  have hm : ∀ l : List Rec, returns l = (l.map Rec.ev).filterMap returned? := fun l => by rw [returns, List.filterMap_map]; rfl
  cases p with
  | ret r =>
    cases r with
    | some g' => exact (Halt.no_loop hq ht).elim
    | none => exact .inl (by rw [hm]; exact Hist.ended h ht rfl rfl rfl (Halt.call E c))
  | op o k =>
    have hwt := Halt.waits hq ht
    obtain ⟨hp, ho⟩ := Follows.api h ht rfl
    have hme : (w.of i).map Rec.ev = e := by
      rw [ho, List.map_map, show Rec.ev ∘ (fun e => (⟨i, .api c, e⟩ : Rec)) = id from rfl, List.map_id]
    have hnow : ([] ++ e).filterMap returned? = [] ∧ (o = .state ∨ o = .lock → needsState c = true) :=
      (wp_op.mp (Hist.now (Halt.call E c) (hme ▸ Hist.real_of h i) hp)).1
    refine .inr ⟨by rw [hm, hme]; simpa using hnow.1, ?_⟩
    have hr := (Role.pending h ht).2
    have hlocked : w.sh.locked = true → LockedUp w := fun hl => by
      rcases c89_rest h hq with h1 | h1 | h1 | h1
      · rw [h1.lock] at hl; cases hl
      · rw [h1.lock] at hl; cases hl
      · exact h1
      · rw [h1.lock] at hl; cases hl
    obtain ⟨ss, hlk, hi⟩ := Halt.Lk.reach h
    obtain ⟨s, hs⟩ := getElem?_some_of_length hlk.1 ht
    have hok : Halt.Lk.ok s o := (wp_op.mp (hlk.2 i _ s ht hs)).1
    cases o <;> first
      | (cases hwt; done)
      | (exact .inr ⟨hlocked hwt, hnow.2 (by simp)⟩)
      | (simp [Role.role, Role.cl] at hr; done)
      | (cases hwt; cases hok.2; done)
      | (refine .inl ⟨?_, hwt⟩; cases c <;> simp [Role.role] at hr ⊢; done)

/-- A `Read` that waits, and a `State` that has returned. -/
example : ∃ w, Reachable E₀ w ∧ Halted E₀ w ∧ calls w = [.read 10, .state] ∧ returns w.trace = [.state .active] :=
  let ⟨w, h, he⟩ := reach_of (E := E₀) (cs := opening .client ++ go 3 1 ++ [.call (.read 10), .call .state] ++ go 6 2 ++ go 5 1)
    (f := fun w => (Halt.haltedB w, calls w, returns w.trace)) (v := (true, [.read 10, .state], [.state .active])) (by kernel_rfl)
  have he := Prod.mk.inj he
  have he₂ := Prod.mk.inj he.2
  ⟨w, h, Halt.halted_of he.1, he₂.1, he₂.2⟩

/-- C89: while the connection listens, every datagram that was received has been dealt with: the goroutine that handles it has ended. -/
theorem c89_listening {E : Env} {w : World} (h : Reachable E w) (hq : Halted E w) (hl : Listening w) {i : Nat} {t : Thread}
    (ht : w.threads[i]? = some t) {raw : Bytes} (hg : t.gor = .packet raw) : t.prog = .ret none := by
  obtain ⟨g, e, p⟩ := t
  obtain rfl : g = .packet raw := hg
  cases p with
  | ret r =>
    cases r with
    | none => rfl
    | some g' => exact (Halt.no_loop hq ht).elim
  | op o k =>
    exfalso
    obtain ⟨ss, hlk, hi⟩ := Halt.Pm.reach h
    obtain ⟨s, hs⟩ := getElem?_some_of_length hlk.1 ht
    have hok : Halt.Pm.ok (.packet raw) s o := (wp_op.mp (hlk.2 i _ s ht hs)).1
    obtain ⟨j, ⟨gj, ej, pj⟩, kj, hj, hp⟩ := hl.reads
    simp only at hp
    subst hp
    obtain ⟨sj, hsj⟩ := getElem?_some_of_length hlk.1 hj
    have hokj : Halt.Pm.ok gj sj (.read 1500) := (wp_op.mp (hlk.2 j _ sj hj hsj)).1
    obtain rfl : sj = .ready := hokj.2.1
    have h1 : Halt.Pm.one s = 1 := by
      cases s with
      | no => exact (hok.1 raw rfl).elim
      | idle => rcases hok.1 with h | h <;> cases h
      | _ => rfl
    have hne : i ≠ j := by
      rintro rfl
      rw [ht] at hj; cases hj
      cases hokj.1
    have h2 := tot_ge_two Halt.Pm.one hne hs hsj
    have h3 : Halt.Pm.one .ready = 1 := rfl
    have := hi.tot
    omega

/-- Whether the monitor waits for a datagram. -/
private def readsB (w : World) : Bool := match (w.threads[2]? : Option Thread) with
  | some ⟨_, _, .op (.read n) _⟩ => n == 1500
  | _ => false

/-- The handler (4) of the ASP Active Ack that opened a connection, when nothing is left to do. -/
example : ∃ w, Reachable E₀ w ∧ Halted E₀ w ∧ Listening w ∧ w.threads[4]?.map Thread.gor = some (.packet ackMsg) := by
  obtain ⟨w, h, he⟩ := reach_of (E := E₀) (cs := opening .client ++ go 3 1)
    (f := fun w => (Halt.haltedB w, readsB w, w.sh.inbox, w.sh.sctpClosed, w.sh.locked, w.threads[4]?.map Thread.gor))
    (v := (true, true, [], false, false, some (.packet ackMsg))) (by kernel_rfl)
  simp only [Prod.mk.injEq] at he
  obtain ⟨h1, h2, h3, h4, h5, h6⟩ := he
  unfold readsB at h2
  split at h2
  · rename_i g hist n k ht
    obtain rfl := eq_of_beq h2
    exact ⟨w, h, Halt.halted_of h1, ⟨⟨2, _, k, ht, rfl⟩, h3, h4, h5⟩, h6⟩
  · cases h2

/-- C89: a connection that has received only datagrams it understands, none of them a Heartbeat Ack, and that has not reported to be open
before becoming active works or is closed, when it does nothing by itself any more. -/
theorem c89_healthy {E : Env} {w : World} (h : Reachable E w) (hq : Halted E w)
    (hu : ∀ raw ∈ receives w.trace, ¬ Unusable raw ∧ meaning raw ≠ some .heartbeatAck)
    (ho : ∀ x ∈ w.trace, x.ev ≠ ⟨.opened .conn, ()⟩ ∧ x.ev ≠ ⟨.opened .timeout, ()⟩) : Listening w ∨ Over w := by
  rcases c89_rest h hq with h1 | h1 | h1 | h1
  · exact .inl h1
  · obtain ⟨raw, hr, h2⟩ := h1.cause
    have := hu raw (List.mem_of_getLast? hr)
    rcases h2 with h2 | ⟨h2, -⟩
    · exact (this.1 h2).elim
    · exact (this.2 h2).elim
  · obtain ⟨x, hx, h2⟩ := h1.cause
    rcases h2 with h2 | h2
    · exact ((ho x hx).1 h2).elim
    · exact ((ho x hx).2 h2).elim
  · exact .inr h1

/-- A client that has said ASP Up and has got no answer. -/
example : ∃ w, Reachable E₀ w ∧ Halted E₀ w ∧ receives w.trace = [] ∧
    ∀ x ∈ w.trace, x.ev ≠ ⟨.opened .conn, ()⟩ ∧ x.ev ≠ ⟨.opened .timeout, ()⟩ :=
  let ⟨w, h, he⟩ := reach_of (E := E₀) (cs := boot .client ++ go 3 1)
    (f := fun w => (Halt.haltedB w, receives w.trace, w.trace.all fun x => match x.ev.op with | .opened _ => false | _ => true))
    (v := (true, [], true)) (by kernel_rfl)
  have he := Prod.mk.inj he
  have he₂ := Prod.mk.inj he.2
  ⟨w, h, Halt.halted_of he.1, he₂.1, fun x hx => by
    have := List.all_eq_true.mp he₂.2 x hx
    constructor <;> (intro e; rw [e] at this; cases this)⟩

/-! ### It does come to rest -/

open Run (around around_le around_fresh tot_fresh)

theorem Halt.own_count {E : Env} {w w' : World} (h : Own E w w') (hc' : w'.sh.crashed = false) :
    2 * w.trace.length + tot around w'.threads + 1 ≤ 2 * w'.trace.length + tot around w.threads := by
  obtain ⟨sh, ts, tr⟩ := w
  cases h with
  | run i g h o k r hc ht hx hm =>
    have h1 := tot_set around ⟨g, h ++ [⟨o, r⟩], k r⟩ ht
    have h2 := around_le ⟨g, h ++ [⟨o, r⟩], k r⟩
    simp only [tot_append, tot_fresh, List.length_append, List.length_singleton] at h1 ⊢
    omega
  | sync i j gi gj hi hj oi oj ki kj ri rj hc hij hti htj hx =>
    have h1 := tot_set around ⟨gi, hi ++ [⟨oi, ri⟩], ki ri⟩ hti
    have h2 := around_le ⟨gi, hi ++ [⟨oi, ri⟩], ki ri⟩
    have htj' : (ts.set i ⟨gi, hi ++ [⟨oi, ri⟩], ki ri⟩)[j]? = some ⟨gj, hj, .op oj kj⟩ := by
      rw [List.getElem?_set_ne hij]
      exact htj
    have h3 := tot_set around ⟨gj, hj ++ [⟨oj, rj⟩], kj rj⟩ htj'
    have h4 := around_le ⟨gj, hj ++ [⟨oj, rj⟩], kj rj⟩
    simp only [List.length_append, List.length_cons, List.length_nil] at h1 h3 ⊢
    omega
  | loop i g g' h hc ht =>
    have h1 := tot_set around (Thread.fresh E g') ht
    rw [around_fresh] at h1
    have h2 : around ⟨g, h, .ret (some g')⟩ = 1 := rfl
    simp only [h2] at h1 ⊢
    omega
  | crash => cases hc'

/-- Nobody but the user calls methods. -/
theorem Halt.own_calls {E : Env} {w w' : World} (hr : Reachable E w) (h : Own E w w') : userCalls w' = userCalls w := by
  have hf := (Follows.reach hr).2
  obtain ⟨sh, ts, tr⟩ := w
  cases h with
  | run i g h o k r hc ht hx hm =>
    have ha := Fuel.gor_set (ts := ts) (t := ⟨g, h, .op o k⟩) (t' := ⟨g, h ++ [⟨o, r⟩], k r⟩) ht rfl
    have hk := Run.pending hr ht
    have hz : ((spawned o).map fun g => (Thread.fresh E g).gor).countP ofUser = 0 := by
      cases o <;> first | rfl | skip
      simp only [spawned, List.map_cons, List.map_nil, Thread.fresh]
      rw [List.countP_cons_of_neg (by rw [hk.1]; simp)]
      rfl
    simp only [userCalls, List.map_append, List.countP_append, List.map_map]
    rw [ha]
    exact (congrArg (_ + ·) hz).trans (Nat.add_zero _)
  | sync i j gi gj hi hj oi oj ki kj ri rj hc hij hti htj hx =>
    have ha := Fuel.gor_set (ts := ts) (t := ⟨gi, hi, .op oi ki⟩) (t' := ⟨gi, hi ++ [⟨oi, ri⟩], ki ri⟩) hti rfl
    have htj' : (ts.set i ⟨gi, hi ++ [⟨oi, ri⟩], ki ri⟩)[j]? = some ⟨gj, hj, .op oj kj⟩ := by
      rw [List.getElem?_set_ne hij]
      exact htj
    have hb := Fuel.gor_set (t' := ⟨gj, hj ++ [⟨oj, rj⟩], kj rj⟩) htj' rfl
    simp only [userCalls]
    rw [hb, ha]
  | loop i g g' h hc ht =>
    have hu := Fuel.loop_user (hf i _ ht).1
    have hl := Fuel.calls_loop (T := { Fuel.gors with budget := fun _ => 1 }) (t := ⟨g, h, .ret (some g')⟩) (t' := Thread.fresh E g') ht hu.1 hu.2
    simp only [Fuel.Tariff.callsIn, tot_one, Nat.one_mul] at hl
    exact hl
  | crash => rfl

theorem Halt.pieces_read {d : Bytes} {q : List Bytes} (h : 1500 < d.length) : pieces (d.drop 1500 :: q) + 1 ≤ pieces (d :: q) := by
  simp only [pieces, List.map_cons, List.sum_cons, List.length_drop]
  have : d.length / 1500 = (d.length - 1500) / 1500 + 1 := by
    rw [← Nat.add_div_right _ (by omega)]
    congr 1
    omega
  omega

/-- What gives the connection work to do is used up. -/
theorem Halt.own_income {E : Env} {w w' : World} (hr : Reachable E w) (h : Own E w w') : beats w'.trace = beats w.trace ∧
    (receives w'.trace).length + pieces w'.sh.inbox ≤ (receives w.trace).length + pieces w.sh.inbox := by
  obtain ⟨sh, ts, tr⟩ := w
  cases h with
  | run i g h o k r hc ht hx hm =>
    have hn : ∀ n, o = .read n → n = 1500 := by
      rintro n rfl
      obtain ⟨ss, hl, hi⟩ := Pm.reach hr
      obtain ⟨s, hs⟩ := getElem?_some_of_length hl.1 ht
      have hok : Pm.ok g s (.read n) := (wp_op.mp (hl.2 i _ s ht hs)).1
      exact hok.2.2
    clear ht
    simp only at hx hm
    cases hx with
    | @read n d q h1 h2 h3 =>
      have h2 : sh.inbox = d :: q := h2
      rw [h2]
      refine ⟨by simp [beats, elapsed], ?_⟩
      simp [receives, received?, pieces]
      omega
    | @readPart n d q h1 h2 h3 =>
      have h2 : sh.inbox = d :: q := h2
      rw [h2]
      obtain rfl := hn n rfl
      refine ⟨by simp [beats, elapsed], ?_⟩
      have := pieces_read (q := q) h3
      simp only [receives, received?, List.filterMap_append, List.filterMap_cons, List.filterMap_nil, List.length_append, List.length_cons,
        List.length_nil]
      omega
    | sleepElapsed => cases hm
    | _ => exact ⟨by simp [beats, elapsed], by simp [receives, received?]⟩
  | sync i j gi gj hi hj oi oj ki kj ri rj hc hij hti htj hx =>
    clear hti htj
    cases hx <;> exact ⟨by simp [beats, elapsed], by simp [receives, received?]⟩
  | loop => exact ⟨rfl, Nat.le_refl _⟩
  | crash => exact ⟨rfl, Nat.le_refl _⟩

theorem _root_.M3.Spec.OwnRun.reach {E : Env} {n : Nat} {w w' : World} (h : Reachable E w) (hr : OwnRun E n w w') : Reachable E w' := by
  induction hr with
  | refl => exact h
  | tail _ hs ih => exact Steps.tail (ih h) hs.step

theorem Halt.run_count {E : Env} {n : Nat} {w w' : World} (h : Reachable E w) (hr : OwnRun E n w w') :
    (w'.sh.crashed = false → 2 * w.trace.length + tot around w'.threads + n ≤ 2 * w'.trace.length + tot around w.threads) ∧
    (w'.sh.crashed = true → 2 * w.trace.length + n ≤ 2 * w'.trace.length + tot around w.threads + 1 ∨ n = 0) ∧
    userCalls w' = userCalls w ∧ beats w'.trace = beats w.trace ∧
    (receives w'.trace).length + pieces w'.sh.inbox ≤ (receives w.trace).length + pieces w.sh.inbox := by
  induction hr with
  | refl => exact ⟨fun _ => by omega, fun _ => .inr rfl, rfl, rfl, Nat.le_refl _⟩
  | @tail n a b c hab hs ih =>
    obtain ⟨i1, i2, i3, i4, i5⟩ := ih h
    have hb := OwnRun.reach h hab
    obtain ⟨j1, j2⟩ := own_income hb hs
    have hbc : b.sh.crashed = false := by cases hs <;> assumption
    refine ⟨fun hc => ?_, fun hc => ?_, (own_calls hb hs).trans i3, j1.trans i4, Nat.le_trans j2 i5⟩
    · have := own_count hs hc
      have := i1 hbc
      omega
    · have := i1 hbc
      have : b.trace.length ≤ c.trace.length := by
        obtain ⟨l, hl⟩ := hs.step.trace
        rw [hl]; simp
      omega

/-- C89: every connection comes to rest: from any situation its goroutines make a bounded number of steps by themselves, whatever they do and in
whatever order. The bound depends on how often the user has called a method, how many datagrams have arrived and how many heartbeat intervals
have elapsed. -/
theorem c89_bounded {E : Env} {n : Nat} {w w' : World} (h : Reachable E w) (hr : OwnRun E n w w') :
    n ≤ 79 + 18 * userCalls w + 48 * ((receives w.trace).length + pieces w.sh.inbox) + 12 * beats w.trace := by
  obtain ⟨i1, i2, i3, i4, i5⟩ := Halt.run_count h hr
  have hw := c87_work (OwnRun.reach h hr)
  have ha := Run.around_bound h
  rw [i3, i4] at hw
  cases hc : w'.sh.crashed with
  | true => rcases i2 hc with h1 | h1 <;> omega
  | false => have := i1 hc; omega

/-- C89: from any situation a connection that is left alone gets to one of the four situations of `c89_rest`, or panics. -/
theorem c89_settles {E : Env} {w : World} (h : Reachable E w) : ∃ n w', OwnRun E n w w' ∧
    (w'.sh.crashed = true ∨ Listening w' ∨ Deafened w' ∨ LockedUp w' ∨ Over w') := by
  refine Classical.byContradiction fun hn => ?_
  have : ∀ n, ∃ w', OwnRun E n w w' := by
    intro n
    induction n with
    | zero => exact ⟨w, .refl w⟩
    | succ n ih =>
      obtain ⟨w', hr⟩ := ih
      have hr' := OwnRun.reach h hr
      refine Classical.byContradiction fun hs => hn ⟨n, w', hr, ?_⟩
      cases hc : w'.sh.crashed with
      | true => exact .inl rfl
      | false => exact .inr (c89_rest hr' ⟨hc, fun w'' ho => hs ⟨w'', .tail hr ho⟩⟩)
  obtain ⟨w', hr⟩ := this (80 + 18 * userCalls w + 48 * ((receives w.trace).length + pieces w.sh.inbox) + 12 * beats w.trace)
  have := c89_bounded h hr
  omega

end M3.Conn
