import Verif.Lemmas.Conn.Timed
import Verif.Lemmas.Conn.Role
import Verif.Props.Conn.Work
import Verif.Props.Conn.Finish

/- What the timers guarantee: C94. -/

set_option autoImplicit false
set_option linter.unusedSimpArgs false

namespace M3.Conn

open Spec

namespace Timed

/-- Each number exceeds the one before by `d` at least. -/
def Spaced (d : Int) : List Nat → Prop
  | a :: b :: l => (a : Int) + d ≤ b ∧ Spaced d (b :: l)
  | _ => True

theorem Spaced.tail {d : Int} {a : Nat} {l : List Nat} (h : Spaced d (a :: l)) : Spaced d l := by
  cases l with
  | nil => trivial
  | cons b l => exact h.2

theorem Spaced.get {d : Int} {l : List Nat} (h : Spaced d l) {i k : Nat} {a b : Nat} (ha : l[i]? = some a)
    (hb : l[i + k]? = some b) : (a : Int) + k * d ≤ b := by
  induction i generalizing l with
  | succ i ih =>
    cases l with
    | nil => cases ha
    | cons c l =>
      rw [show i + 1 + k = (i + k) + 1 by omega] at hb
      exact ih h.tail (by simpa using ha) (by simpa using hb)
  | zero =>
    induction k generalizing l a with
    | zero => rw [ha] at hb; cases hb; simp
    | succ k ih =>
      match l, h with
      | [], _ => cases ha
      | [c], _ => simp at hb
      | c :: c' :: l, h =>
        have := ih h.2 (a := c') (by simp) (by simpa using hb)
        have h1 := h.1
        simp only [List.getElem?_cons_zero, Option.some.injEq] at ha
        subst ha
        rw [Int.natCast_succ, Int.add_mul, Int.one_mul]
        omega

theorem Spaced.short {d : Int} {l : List Nat} (h : l.length ≤ 1) : Spaced d l := by
  match l, h with
  | [], _ => trivial
  | [_], _ => trivial
  | _ :: _ :: _, h => simp at h

def writing : Ev → Bool
  | ⟨.write _ _, _⟩ => true
  | _ => false

theorem times_le (L : List (Rec × Nat)) : (L.filterMap beatTime?).length ≤ (L.map fun p => p.1.ev).countP writing := by
  induction L with
  | nil => simp
  | cons p L ih =>
    obtain ⟨⟨i, g, o, r⟩, t⟩ := p
    cases h : beatTime? (⟨i, g, o, r⟩, t) with
    | none => rw [List.filterMap_cons_none h, List.map_cons, List.countP_cons]; omega
    | some s =>
      rw [List.filterMap_cons_some h, List.map_cons, List.countP_cons, List.length_cons]
      unfold beatTime? at h
      split at h
      · rename_i h'
        cases h'
        simp only [writing, if_true]
        omega
      · cases h

theorem round_writes {r : List Ev} {b : Bool} (h : BeatRound r b) : r.countP writing ≤ 1 := by
  cases h <;> simp [beaten, writing, List.countP_cons]

/-- A round after which another one follows. -/
theorem again {r : List Ev} (h : BeatRound r true) :
    ∃ d n, r = beaten d (some n) ++ [⟨.setBeat, ()⟩, ⟨.ackSelect, AckEv.ack⟩, ⟨.sleepSelect, false⟩] := by
  generalize hb : true = b at h
  cases h with
  | acked d n stop hd =>
    cases stop with
    | false => exact ⟨d, n, rfl⟩
    | true => cases hb
  | _ => cases hb

theorem spaced {E : Env} {rounds : List (List Ev)} {last : List Ev} (hr : ∀ r ∈ rounds, BeatRound r true)
    (hl : ∃ rest b, BeatRound (last ++ rest) b) {L : List (Rec × Nat)} (hL : L.map (fun p => p.1.ev) = rounds.flatten ++ last)
    (hs : L.Pairwise fun p q => p.2 ≤ q.2)
    (hgap : ∀ a q p b, L = a ++ q :: p :: b → ∀ d, p.1.ev.after? E = some d → (q.2 : Int) + d ≤ p.2) :
    Spaced E.hb.interval (L.filterMap beatTime?) := by
  induction rounds generalizing L with
  | nil =>
    refine Spaced.short (Nat.le_trans (times_le L) ?_)
    obtain ⟨rest, b, h⟩ := hl
    have := round_writes h
    rw [List.countP_append] at this
    rw [hL]
    simp only [List.flatten_nil, List.nil_append]
    omega
  | cons r rs ih =>
    rw [List.flatten_cons, List.append_assoc] at hL
    obtain ⟨L₁, L₂, rfl, h1, h2⟩ := List.map_eq_append_iff.mp hL
    obtain ⟨d, n, rfl⟩ := again (hr r (List.mem_cons_self ..))
    have ih := ih (fun r h => hr r (List.mem_cons_of_mem _ h)) h2 (List.pairwise_append.mp hs).2.1
      (fun a q p b h => hgap (L₁ ++ a) q p b (by rw [h, List.append_assoc]))
    simp only [beaten, List.cons_append, List.nil_append, List.map_eq_cons_iff, List.map_eq_nil_iff] at h1
    obtain ⟨p1, _, rfl, e1, p2, _, rfl, e2, p3, _, rfl, e3, p4, _, rfl, e4, p5, _, rfl, e5, p6, _, rfl, e6, rfl⟩ := h1
    have hg := hgap [p1, p2, p3, p4] p5 p6 L₂ rfl E.hb.interval (by rw [e6]; rfl)
    have none_of : ∀ p : Rec × Nat, writing p.1.ev = false → beatTime? p = none := by
      intro p hp
      unfold beatTime?
      split
      · cases hp
      · rfl
    have n1 := none_of p1 (by rw [e1]; rfl)
    have n2 := none_of p2 (by rw [e2]; rfl)
    have n4 := none_of p4 (by rw [e4]; rfl)
    have n5 := none_of p5 (by rw [e5]; rfl)
    have n6 := none_of p6 (by rw [e6]; rfl)
    rw [List.filterMap_append]
    simp only [List.filterMap_cons, n1, n2, n4, n5, n6, List.filterMap_nil]
    obtain ⟨hs1, -, hs3⟩ := List.pairwise_append.mp hs
    have h35 : p3.2 ≤ p5.2 := by
      simp only [List.pairwise_cons, List.mem_cons, forall_eq_or_imp] at hs1
      exact hs1.2.2.1.2.1
    have hlater : ∀ b ∈ L₂.filterMap beatTime?, p6.2 ≤ b := by
      intro b hb
      obtain ⟨q, hq, hqb⟩ := List.mem_filterMap.mp hb
      have hq2 : q.2 = b := by
        unfold beatTime? at hqb
        split at hqb
        · exact Option.some.inj hqb
        · cases hqb
      rw [← hq2]
      exact hs3 p6 (by simp) q hq
    cases hb3 : beatTime? p3 with
    | none => simpa using ih
    | some a =>
      have ha : p3.2 = a := by
        unfold beatTime? at hb3
        split at hb3
        · exact Option.some.inj hb3
        · cases hb3
      subst ha
      simp only [List.singleton_append, List.cons_append, List.nil_append]
      cases hc : L₂.filterMap beatTime? with
      | nil => trivial
      | cons b l =>
        rw [hc] at ih hlater
        have := hlater b (List.mem_cons_self ..)
        exact ⟨by omega, ih⟩

/-- The heartbeats are those of one goroutine. -/
theorem beatTimes_mine {log : List (Rec × Nat)} {i : Nat} (h : ∀ p ∈ log, p.1.gor = .beatLoop → p.1.tid = i) :
    (mine log i).filterMap beatTime? = beatTimes log := by
  induction log with
  | nil => rfl
  | cons p log ih =>
    have ih := ih fun q hq => h q (List.mem_cons_of_mem _ hq)
    by_cases hp : p.1.tid = i
    · rw [mine, List.filter_cons_of_pos (by simpa using hp), beatTimes, List.filterMap_cons, List.filterMap_cons]
      rw [mine] at ih
      rw [ih]
      rfl
    · rw [mine, List.filter_cons_of_neg (by simpa using hp), beatTimes, List.filterMap_cons]
      rw [mine] at ih
      have : beatTime? p = none := by
        unfold beatTime?
        split
        · exact absurd (h _ (List.mem_cons_self ..) rfl) hp
        · rfl
      rw [this, ih]
      rfl

theorem beat_spaced {E : Env} {t : Timed} (h : Reachable E t) : Spaced E.hb.interval (beatTimes t.log) := by
  by_cases hx : ∃ p ∈ t.log, p.1.gor = .beatLoop
  · obtain ⟨p, hp, hg⟩ := hx
    have hG := h.good
    have mem : ∀ q ∈ t.log, q.1 ∈ t.w.trace := fun q hq => hG.log ▸ List.mem_map_of_mem (f := Prod.fst) hq
    rw [← beatTimes_mine (i := p.1.tid) fun q hq hqg => ((Solo.reach hG.reach (mem p hp) (mem q hq) hg).mp hqg).1]
    obtain ⟨th, h1, h2⟩ := stays hG.reach p.1 (mem p hp) hg
    obtain ⟨-, rounds, last, h3, h4, h5, -⟩ := c73_rounds hG.reach h1 h2
    have hm := mine_map hG.log p.1.tid
    rw [← hm, List.map_map, List.append_assoc] at h3
    obtain ⟨L₁, L₂, hL, h6, h7⟩ := List.map_eq_append_iff.mp h3
    rw [hL, List.filterMap_append]
    have : L₁.filterMap beatTime? = [] := by
      have := times_le L₁
      rw [show (L₁.map fun p => p.1.ev) = _ from h6] at this
      exact List.eq_nil_of_length_eq_zero (Nat.le_zero.mp (by simpa [writing] using this))
    rw [this, List.nil_append]
    have hs := hG.sorted p.1.tid
    rw [hL] at hs
    exact spaced h4 h5 h7 (List.pairwise_append.mp hs).2.1 fun a q p b hab d hd =>
      hG.gap (a := L₁ ++ a) (by rw [hL, hab, List.append_assoc]) hd
  · have : beatTimes t.log = [] := by
      refine List.filterMap_eq_nil_iff.mpr fun p hp => ?_
      unfold beatTime?
      split
      · exact absurd ⟨_, hp, rfl⟩ hx
      · rfl
    rw [this]
    trivial

theorem lastOf_concat (a : List (Rec × Nat)) (p : Rec × Nat) (i : Nat) :
    lastOf (a ++ [p]) i = if p.1.tid = i then p.2 else lastOf a i := by
  unfold lastOf
  rw [List.filter_append]
  by_cases h : p.1.tid = i
  · rw [List.filter_cons_of_pos (by simpa using h), List.getLast?_append, if_pos h]
    rfl
  · rw [List.filter_cons_of_neg (by simpa using h), List.filter_nil, List.append_nil, if_neg h]

theorem elapsed_after {E : Env} {e : Ev} (h : elapsed e = true) : e.after? E = some E.hb.interval := by
  obtain ⟨o, r⟩ := e
  cases o <;> first | (cases h; done) | skip
  have hr : r = false := of_decide_eq_true h
  subst hr
  rfl

/-- Intervals that elapsed take their time. -/
theorem slept {E : Env} {t : Timed} (h : Reachable E t) (i : Nat) (ha : ∀ p ∈ t.log, elapsed p.1.ev = true → p.1.tid = i)
    {n : Nat} (hn : n ≤ t.log.length) :
    ((t.log.take n).countP (fun p => elapsed p.1.ev) : Int) * E.hb.interval ≤ lastOf (t.log.take n) i := by
  have hG := h.good
  induction n with
  | zero => rw [List.take_zero, List.countP_nil]; simp
  | succ n ih =>
    have ih := ih (by omega)
    have hlt : n < t.log.length := by omega
    rw [List.take_succ_eq_append_getElem hlt, List.countP_append, lastOf_concat]
    have hsplit : t.log = t.log.take n ++ t.log[n] :: t.log.drop (n + 1) := by
      rw [List.getElem_cons_drop, List.take_append_drop]
    have hs := hG.order
    rw [hsplit] at hs
    have hle : lastOf (t.log.take n) i ≤ t.log[n].2 :=
      lastOf_le (fun q hq => (List.pairwise_append.mp hs).2.2 q hq _ (List.mem_cons_self ..)) i
    by_cases he : elapsed t.log[n].1.ev = true
    · have hti := ha _ (List.getElem_mem hlt) he
      have hp := hG.paced _ _ _ hsplit E.hb.interval (elapsed_after he)
      rw [hti] at hp
      rw [if_pos hti, List.countP_singleton, if_pos he]
      rw [Int.natCast_add, Int.add_mul]
      simp only [Int.natCast_one, Int.one_mul]
      omega
    · rw [List.countP_singleton, if_neg he, Nat.add_zero]
      split <;> omega

theorem elapsed_count {log : List (Rec × Nat)} {tr : List Rec} (h : log.map Prod.fst = tr) :
    log.countP (fun p => elapsed p.1.ev) = beats tr := by
  rw [beats, ← h, List.countP_map]
  rfl

/-- What comes before `ErrHeartbeatExpired` and before `Dial` or `Accept` returns `ErrTimeout`. -/
def Due (s : List Ev) (o : Op) : Prop :=
  (o = .sendErr .heartbeatExpired → ∃ d n, s = beaten d (some n) ++ [⟨.setBeat, ()⟩, ⟨.ackSelect, AckEv.timer⟩]) ∧
  (o = .opened .timeout → ∃ b : Bool, s = [⟨.estSelect, EstEv.timeout⟩, ⟨.sctpClose, b⟩])

theorem due (E : Env) (g : Gor) : WP (Hist Due) g (fun _ _ => True) [] (body E g) := by
  cases g with
  | beatLoop =>
    rw [body, beatLoop_eq, wp_op]
    refine ⟨⟨nofun, nofun⟩, fun r hr => ?_⟩
    cases r with
    | none => exact wp_op.mpr ⟨⟨nofun, nofun⟩, fun _ _ => wp_ret.mpr trivial⟩
    | some d =>
      have hd : d.length = 128 := hr
      simp only [wp_op]
      refine ⟨⟨nofun, nofun⟩, fun i hi => ?_⟩
      obtain rfl : i = ⟨3, 0⟩ := hi
      have hw := beat_wire hd
      have hs := sigInfo_std (beatMsg d)
      generalize (beatMsg d).wire = b at *
      generalize sigInfo (beatMsg d) ⟨3, 0⟩ = j at *
      subst hw hs
      refine ⟨⟨nofun, nofun⟩, fun r _ => ?_⟩
      cases r with
      | none => exact wp_op.mpr ⟨⟨nofun, nofun⟩, fun _ _ => wp_ret.mpr trivial⟩
      | some n =>
        simp only [wp_op]
        refine ⟨⟨nofun, nofun⟩, fun _ _ => ⟨⟨nofun, nofun⟩, fun r _ => ?_⟩⟩
        cases r with
        | ctx => exact wp_ret.mpr trivial
        | closed => exact wp_ret.mpr trivial
        | timer => exact wp_op.mpr ⟨⟨fun _ => ⟨d, n, rfl⟩, nofun⟩, fun _ _ => wp_ret.mpr trivial⟩
        | ack =>
          refine wp_op.mpr ⟨⟨nofun, nofun⟩, fun r _ => ?_⟩
          cases r <;> exact wp_ret.mpr trivial
  | monitorLoop =>
    obtain ⟨mode, cfg, hb, ms⟩ := E
    cases mode <;> wp_code [Hist.ok_eq, Hist.may_eq, Hist.next_eq, Due] <;> simp
  | packet raw =>
    rw [body, packet_eq]
    cases hp : M3UA.parse raw with
    | ok m => cases m <;> wp_code [Hist.ok_eq, Hist.may_eq, Hist.next_eq, Due] <;> simp
    | _ => wp_code [Hist.ok_eq, Hist.may_eq, Hist.next_eq, Due] <;> simp
  | api c => cases c <;> wp_code [Hist.ok_eq, Hist.may_eq, Hist.next_eq, Due] <;> simp
  | _ => wp_code [Hist.ok_eq, Hist.may_eq, Hist.next_eq, Due] <;> simp

/-- The entries of the log before one of goroutine `i`, and what they belong to. -/
theorem Good.before {E : Env} {t : Timed} (h : Good E t) {l₁ l₂ : List (Rec × Nat)} {x : Rec} {s : Nat}
    (hl : t.log = l₁ ++ (x, s) :: l₂) : ∃ pre h₁, mine l₁ x.tid = pre ++ h₁ ∧
      (∀ p ∈ h₁, p.1.gor = x.gor) ∧ Due (h₁.map fun p => p.1.ev) x.ev.op := by
  have hm := mine_map h.log x.tid
  rw [hl, mine, List.filter_append, List.filter_cons_of_pos (by simp), List.map_append, List.map_cons] at hm
  obtain ⟨pre, h₁, h1, h2⟩ := Hist.iter h.reach hm.symm (due E x.gor)
  obtain ⟨P, H, hPH, -, hH⟩ := List.map_eq_append_iff.mp h1
  refine ⟨P, H, hPH, fun p hp => ?_, ?_⟩
  · have : p.1 ∈ H.map Prod.fst := List.mem_map_of_mem hp
    rw [hH] at this
    obtain ⟨e, -, he⟩ := List.mem_map.mp this
    rw [← he]
  · have : H.map (fun p => p.1.ev) = h₁ := by
      have := congrArg (List.map Rec.ev) hH
      rw [List.map_map, List.map_map, show Rec.ev ∘ (fun e => (⟨x.tid, x.gor, e⟩ : Rec)) = id from rfl, List.map_id] at this
      exact this
    rw [this]; exact h2

/-- Steps in which no timer fires take no time. -/
theorem follow {E : Env} {t : Timed} {w' : World} {l : List Rec} (h : Reachable E t) (hs : Steps E t.w w')
    (hl : w'.trace = t.w.trace ++ l) (ht : ∀ x ∈ l, x.ev.after? E = none) :
    Reachable E ⟨w', t.now, t.log ++ l.map fun x => (x, t.now)⟩ := by
  generalize hw : t.w = w at hs hl
  induction hs generalizing l with
  | refl =>
    have : l = [] := by simpa using hl
    subst this
    simpa [← hw] using h
  | @tail b c hab hbc ih =>
    obtain ⟨l₁, h1⟩ := hab.trace
    obtain ⟨l₂, h2⟩ := hbc.trace
    have : l = l₁ ++ l₂ := by
      rw [h2, h1, List.append_assoc] at hl
      exact (List.append_cancel_left hl).symm
    subst this
    have ih := ih (l := l₁) (fun x hx => ht x (List.mem_append_left _ hx)) h1
    have := Reachable.step ih (Step.act (t := ⟨b, t.now, t.log ++ l₁.map fun x => (x, t.now)⟩) hbc h2 fun x hx d hd => by rw [ht x (List.mem_append_right _ hx)] at hd; cases hd)
    simpa using this

end Timed

/-- C94: a clock adds nothing but times to the executions of a connection: the entries of the log are those of the trace, their
times are in order, and an operation that a timer completes comes at least the duration of the timer after the operation that the
goroutine completed before (after the start of the connection, if it is the first). -/
theorem c94_clock {E : Env} {t : Timed} (h : Timed.Reachable E t) : Reachable E t.w ∧ t.log.map Prod.fst = t.w.trace ∧
    (t.log.Pairwise fun p q => p.2 ≤ q.2) ∧ (∀ p ∈ t.log, p.2 ≤ t.now) ∧
    ∀ a p b, t.log = a ++ p :: b → ∀ d, p.1.ev.after? E = some d →
      d ≤ p.2 ∧ ∀ q ∈ a, q.1.tid = p.1.tid → (q.2 : Int) + d ≤ p.2 := by
  have hG := h.good
  refine ⟨hG.reach, hG.log, hG.order, hG.past, fun a p b hl d hd => ?_⟩
  have hp := hG.paced a p b hl d hd
  refine ⟨by omega, fun q hq hqt => ?_⟩
  have hm : q ∈ Timed.mine a p.1.tid := List.mem_filter.mpr ⟨hq, by simpa using hqt⟩
  have hs : (Timed.mine a p.1.tid).Pairwise fun p q => p.2 ≤ q.2 := by
    have := hG.order
    rw [hl] at this
    exact (List.pairwise_append.mp this).1.sublist List.filter_sublist
  rcases List.eq_nil_or_concat (Timed.mine a p.1.tid) with hn | ⟨c, z, hz⟩
  · rw [hn] at hm; cases hm
  · rw [List.concat_eq_append] at hz
    rw [Timed.lastOf_snoc hz] at hp
    rw [hz] at hm hs
    rcases List.mem_append.mp hm with hm | hm
    · have := (List.pairwise_append.mp hs).2.2 q hm z (by simp)
      omega
    · obtain rfl := List.mem_singleton.mp hm
      exact hp

/-- C94: the clock excludes nothing: every execution is possible with a clock. -/
theorem c94_exists {E : Env} {w : World} (h : Reachable E w) : ∃ t, Timed.Reachable E t ∧ t.w = w := by
  rw [Reachable] at h
  generalize hi : init E = w₀ at h
  induction h with
  | refl => exact ⟨Timed.init E, .init, hi⟩
  | @tail a c hab hs ih =>
    obtain ⟨t, ht, rfl⟩ := ih
    obtain ⟨l, hl⟩ := hs.trace
    have hG := ht.good
    have hw := ht.step (.wait (E.hb.timer.toNat + E.hb.interval.toNat + tenSeconds.toNat))
    refine ⟨_, hw.step (.act (l := l) hs hl fun x hx d hd => ?_), rfl⟩
    have hd : d ≤ (E.hb.timer.toNat + E.hb.interval.toNat + tenSeconds.toNat : Nat) := by
      unfold Ev.after? at hd
      split at hd <;> cases hd <;> omega
    have := Timed.lastOf_le hG.past x.tid
    simp only
    omega

/-- C94: the `k`-th heartbeat after another one is sent at least `k` intervals later. -/
theorem c94_spacing {E : Env} {t : Timed} (h : Timed.Reachable E t) {i k a b : Nat} (ha : (beatTimes t.log)[i]? = some a)
    (hb : (beatTimes t.log)[i + k]? = some b) : (a : Int) + k * E.hb.interval ≤ b :=
  (Timed.beat_spaced h).get ha hb

/-- C94: as many intervals as have elapsed fit into the time that has passed. -/
theorem c94_intervals {E : Env} {t : Timed} (h : Timed.Reachable E t) : (beats t.w.trace : Int) * E.hb.interval ≤ t.now := by
  have hG := h.good
  have mem : ∀ q ∈ t.log, q.1 ∈ t.w.trace := fun q hq => hG.log ▸ List.mem_map_of_mem (f := Prod.fst) hq
  have hg : ∀ p ∈ t.log, elapsed p.1.ev = true → p.1.gor = .beatLoop := by
    intro p hp he
    have hr := (Role.reach hG.reach p.1 (mem p hp)).2
    obtain ⟨⟨j, g, o, r⟩, s⟩ := p
    cases o <;> first | (cases he; done) | skip
    simpa [Role.role] using hr
  have key : ∃ i, ∀ p ∈ t.log, elapsed p.1.ev = true → p.1.tid = i := by
    by_cases hx : ∃ p ∈ t.log, p.1.gor = .beatLoop
    · obtain ⟨p, hp, hpg⟩ := hx
      exact ⟨p.1.tid, fun q hq he => ((Solo.reach hG.reach (mem p hp) (mem q hq) hpg).mp (hg q hq he)).1⟩
    · exact ⟨0, fun q hq he => absurd ⟨q, hq, hg q hq he⟩ hx⟩
  obtain ⟨i, hi⟩ := key
  have := Timed.slept h i hi (Nat.le_refl _)
  rw [List.take_length, Timed.elapsed_count hG.log] at this
  have h2 := Timed.lastOf_le hG.past i
  omega

/-- C94: the work a connection does in a given time is limited by the calls of the user, the datagrams received and the number of
intervals that fit into that time. -/
theorem c94_work {E : Env} {t : Timed} (h : Timed.Reachable E t) (hi : 0 < E.hb.interval) :
    (t.w.trace.length : Int) ≤ 39 + 9 * userCalls t.w + 24 * (receives t.w.trace).length + 6 * (t.now / E.hb.interval) := by
  have h1 := c87_work h.good.reach
  have h2 : (beats t.w.trace : Int) ≤ t.now / E.hb.interval := (Int.le_ediv_iff_mul_le hi).mpr (c94_intervals h)
  omega

/-- C94: `ErrHeartbeatExpired` is reported only if the duration `Timer` has passed since a heartbeat was sent for which no
acknowledgement has been accepted. -/
theorem c94_expired {E : Env} {t : Timed} (h : Timed.Reachable E t) {l₁ l₂ : List (Rec × Nat)} {x : Rec} {s : Nat}
    (hl : t.log = l₁ ++ (x, s) :: l₂) (hx : x.ev.op = .sendErr .heartbeatExpired) :
    ∃ (a b : List (Rec × Nat)) (y : Rec) (r : Nat) (d : List UInt8) (n : Nat), l₁ = a ++ (y, r) :: b ∧ y.gor = .beatLoop ∧
      y.ev = ⟨.write (message 1 3 3 [tlv 9 d]) ⟨3, 0⟩, some n⟩ ∧ (r : Int) + E.hb.timer ≤ s ∧
      ∀ z ∈ b, z.1.ev ≠ ⟨.ackSelect, AckEv.ack⟩ := by
  have hG := h.good
  obtain ⟨pre, h₁, hm, hgor, hdue, -⟩ := hG.before hl
  obtain ⟨d, n, he⟩ := hdue hx
  simp only [beaten, List.cons_append, List.nil_append, List.map_eq_cons_iff, List.map_eq_nil_iff] at he
  obtain ⟨p1, _, rfl, e1, p2, _, rfl, e2, p3, _, rfl, e3, p4, _, rfl, e4, p5, _, rfl, e5, rfl⟩ := he
  have mem : ∀ q ∈ t.log, q.1 ∈ t.w.trace := fun q hq => hG.log ▸ List.mem_map_of_mem (f := Prod.fst) hq
  have role : ∀ q ∈ t.log, q.1.ev.op = .setBeat ∨ q.1.ev.op = .ackSelect → q.1.gor = .beatLoop := by
    intro q hq ho
    have hr := (Role.reach hG.reach q.1 (mem q hq)).2
    rcases ho with ho | ho <;> rw [ho] at hr <;> simpa [Role.role] using hr
  have hin : ∀ q ∈ pre ++ [p1, p2, p3, p4, p5], q ∈ t.log ∧ q.1.tid = x.tid := by
    intro q hq
    rw [← hm] at hq
    obtain ⟨hq, ht⟩ := List.mem_filter.mp hq
    exact ⟨by rw [hl]; exact List.mem_append_left _ hq, by simpa using ht⟩
  have hp4 := hin p4 (by simp)
  have hp4g := role p4 hp4.1 (.inl (by rw [e4]))
  have hp3g : p3.1.gor = .beatLoop := by rw [hgor p3 (by simp), ← hgor p4 (by simp)]; exact hp4g
  -- the entries of the goroutine in the log
  have hall : Timed.mine t.log x.tid = (pre ++ [p1, p2, p3]) ++ p4 :: p5 :: (x, s) :: Timed.mine l₂ x.tid := by
    have : Timed.mine t.log x.tid = Timed.mine l₁ x.tid ++ (x, s) :: Timed.mine l₂ x.tid := by
      rw [hl, Timed.mine, List.filter_append, List.filter_cons_of_pos (by simp)]
      rfl
    rw [this, hm]
    simp
  have hgap := hG.gap hall (d := E.hb.timer) (by rw [e5]; rfl)
  have hsort := hG.sorted x.tid
  rw [hall] at hsort
  have h34 : p3.2 ≤ p4.2 := (List.pairwise_append.mp hsort).2.2 p3 (by simp) p4 (by simp)
  have h5s : p5.2 ≤ s := by
    have := (List.pairwise_append.mp hsort).2.1
    simp only [List.pairwise_cons] at this
    exact this.2.1 (x, s) (by simp)
  -- the heartbeat in the log
  have hf : l₁.filter (fun p => p.1.tid == x.tid) = (pre ++ [p1, p2]) ++ p3 :: [p4, p5] := by
    show Timed.mine l₁ x.tid = _
    rw [hm]; simp
  obtain ⟨A, B, hAB, -, hB⟩ := List.filter_eq_append_iff.mp hf
  obtain ⟨B₁, B₂, rfl, -, -, hB₂⟩ := List.filter_eq_cons_iff.mp hB
  refine ⟨A ++ B₁, B₂, p3.1, p3.2, d, n, by rw [hAB]; simp, hp3g, e3, by omega, fun z hz hze => ?_⟩
  have hzl : z ∈ t.log := by rw [hl, hAB]; simp [hz]
  have hzg := role z hzl (.inr (by rw [hze]))
  have hzt := ((Solo.reach hG.reach (mem p4 hp4.1) (mem z hzl) hp4g).mp hzg).1
  have : z ∈ [p4, p5] := by
    rw [← hB₂]
    exact List.mem_filter.mpr ⟨hz, by rw [hzt, hp4.2]; simp⟩
  simp only [List.mem_cons, List.not_mem_nil, or_false] at this
  rcases this with rfl | rfl
  · rw [e4] at hze; cases hze
  · rw [e5] at hze; cases hze

/-- C94: `Dial` and `Accept` do not return `ErrTimeout` before ten seconds have passed. -/
theorem c94_open {E : Env} {t : Timed} (h : Timed.Reachable E t) {x : Rec} {s : Nat} (hl : (x, s) ∈ t.log)
    (hx : x.ev.op = .opened .timeout) : 10 * 1000000000 ≤ s := by
  have hG := h.good
  obtain ⟨l₁, l₂, hl⟩ := List.append_of_mem hl
  obtain ⟨pre, h₁, hm, -, -, hdue⟩ := hG.before hl
  obtain ⟨b, he⟩ := hdue hx
  simp only [List.map_eq_cons_iff, List.map_eq_nil_iff] at he
  obtain ⟨p1, _, rfl, e1, p2, _, rfl, e2, rfl⟩ := he
  have hp : p1 ∈ l₁ := (List.mem_filter.mp (by rw [← Timed.mine, hm]; simp : p1 ∈ l₁.filter fun p => p.1.tid == x.tid)).1
  obtain ⟨a, c, rfl⟩ := List.append_of_mem hp
  have h1 := hG.paced a p1 (c ++ (x, s) :: l₂) (by rw [hl]; simp) tenSeconds (by rw [e1]; rfl)
  have h2 := hG.order
  rw [hl] at h2
  have h3 : p1.2 ≤ s := (List.pairwise_append.mp h2).2.2 p1 (by simp) (x, s) (by simp)
  unfold tenSeconds at h1
  omega

/-- Which timer completed an operation. -/
def Timed.kind : Ev → Nat
  | ⟨.ackSelect, .timer⟩ => 1
  | ⟨.sleepSelect, false⟩ => 2
  | ⟨.estSelect, .timeout⟩ => 3
  | _ => 0

/-- Its duration. -/
def Timed.duration (E : Env) : Nat → Option Int
  | 1 => some E.hb.timer
  | 2 => some E.hb.interval
  | 3 => some tenSeconds
  | _ => none

theorem Timed.kind_after {E : Env} {e : Ev} : e.after? E = duration E (kind e) := by
  obtain ⟨o, r⟩ := e
  cases o <;> first | rfl | (cases r <;> rfl)

theorem Timed.after_none {E : Env} {e : Ev} (h : kind e = 0) : e.after? E = none := by rw [kind_after, h]; rfl

/-- An execution in which one timer fires, as early as possible. -/
theorem Timed.delayed {E : Env} {w₁ w₂ w₃ : World} {x : Rec} {l : List Rec} {d : Int} (h : Conn.Reachable E w₁)
    (h₁ : ∀ x ∈ w₁.trace, kind x.ev = 0) (hs : Conn.Step E w₁ w₂) (h₂ : w₂.trace = w₁.trace ++ [x])
    (hx : x.ev.after? E = some d) (hd : 0 ≤ d) (hs' : Steps E w₂ w₃) (h₃ : w₃.trace = w₂.trace ++ l)
    (hl : ∀ x ∈ l, kind x.ev = 0) :
    Timed.Reachable E ⟨w₃, d.toNat, (w₁.trace.map fun x => (x, 0)) ++ (x :: l).map fun x => (x, d.toNat)⟩ := by
  have r1 := follow (l := w₁.trace) (.init (E := E)) h rfl fun x hx => after_none (h₁ x hx)
  have r2 := r1.step (.wait d.toNat)
  have r3 := r2.step (.act (l := [x]) hs h₂ fun y hy d' hd' => by
    obtain rfl := List.mem_singleton.mp hy
    rw [hx] at hd'
    cases hd'
    have := lastOf_le r1.good.past y.tid
    have h0 : (Timed.init E).now = 0 := rfl
    simp only [h0] at this ⊢
    omega)
  have r4 := follow (l := l) r3 hs' h₃ fun x hx => after_none (hl x hx)
  simpa [Timed.init] using r4

/-- An entry that hands a heartbeat to SCTP. -/
def Timed.isBeat (x : Rec) : Bool := (beatTime? (x, 0)).isSome

theorem Timed.beatTimes_const (l : List Rec) (n : Nat) : beatTimes (l.map fun x => (x, n)) = List.replicate (l.countP isBeat) n := by
  induction l with
  | nil => rfl
  | cons x l ih =>
    rw [List.map_cons, beatTimes, List.filterMap_cons, List.countP_cons, ← beatTimes, ih]
    obtain ⟨i, g, o, r⟩ := x
    cases g <;> try rfl
    cases o <;> rfl

/-- A schedule with one timer, that fires as early as possible. -/
theorem Timed.early {α : Type} {E : Env} {cs ds : List Choice} {c : Choice} {k : Nat} {d : Int} {g : List Rec → List Rec → α} {v : α}
    (h : ((play (body' E) (Conn.init E) cs).bind fun w => (step (body' E) w c).bind fun w' => (play (body' E) w' ds).map fun w'' =>
      (w.trace.all fun x => kind x.ev == 0, (w'.trace.drop w.trace.length).map fun x => kind x.ev,
        (w''.trace.drop w'.trace.length).all fun x => kind x.ev == 0, g w.trace (w''.trace.drop w.trace.length))) =
      some (true, [k], true, v))
    (hk : ∀ e : Ev, kind e = k → e.after? E = some d) (hd : 0 ≤ d) :
    ∃ w l₁ l₂, Timed.Reachable E ⟨w, d.toNat, (l₁.map fun x => (x, 0)) ++ l₂.map fun x => (x, d.toNat)⟩ ∧ g l₁ l₂ = v := by
  obtain ⟨w₁, w₂, w₃, h1, h2, h3, hv⟩ := reach_step (f := fun w w' w'' =>
      (w.trace.all fun x => kind x.ev == 0, (w'.trace.drop w.trace.length).map fun x => kind x.ev,
        (w''.trace.drop w'.trace.length).all fun x => kind x.ev == 0, g w.trace (w''.trace.drop w.trace.length))) h
  simp only [Prod.mk.injEq, List.all_eq_true, beq_iff_eq] at hv
  obtain ⟨k1, k2, k3, k4⟩ := hv
  obtain ⟨l, hl⟩ := h2.trace
  obtain ⟨l', hl'⟩ := h3.trace
  rw [hl, List.drop_left] at k2
  rw [hl', List.drop_left] at k3
  rw [hl', hl, List.append_assoc, List.drop_left] at k4
  obtain ⟨x, l₀, rfl, hx, hn⟩ := List.map_eq_cons_iff.mp k2
  obtain rfl := List.map_eq_nil_iff.mp hn
  exact ⟨w₃, w₁.trace, x :: l', delayed h1 k1 h2 hl (hk _ hx) hd h3 hl' k3, k4⟩

/-- C94: heartbeats can come as early as `c94_spacing` allows. -/
theorem c94_spacing_tight {E : Env} (he : E.hb.enabled = true) (hi : 0 ≤ E.hb.interval) :
    ∃ t, Timed.Reachable E t ∧ beatTimes t.log = [0, E.hb.interval.toNat] := by
  obtain ⟨w, l₁, l₂, ht, hv⟩ := Timed.early (E := E) (k := 2) (d := E.hb.interval) (v := (1, 1))
    (g := fun l₁ l₂ => (l₁.countP Timed.isBeat, l₂.countP Timed.isBeat))
    (cs := openingBeatOf E.mode ++ go 3 1 ++ beat (List.replicate 128 0)
      ++ [.deliver (message 1 3 6 [tlv 9 (List.replicate 128 0)])] ++ go 2 2 ++ [.loop 2] ++ go 5 3 ++ [.sync 5 3])
    (c := .run 3 .timer) (ds := beat (List.replicate 128 1)) (by
      obtain ⟨mode, cfg, ⟨en, a, b, c⟩, ms⟩ := E
      simp only at he
      subst he
      cases mode <;> kernel_rfl) (fun e hk => by rw [Timed.kind_after, hk]; rfl) hi
  refine ⟨_, ht, ?_⟩
  simp only [Prod.mk.injEq] at hv
  show beatTimes (_ ++ _) = _
  rw [beatTimes, List.filterMap_append, ← beatTimes, ← beatTimes, Timed.beatTimes_const, Timed.beatTimes_const, hv.1, hv.2]
  rfl

/-- C94: a heartbeat can be found expired as early as `c94_expired` allows. -/
theorem c94_expired_tight {E : Env} (he : E.hb.enabled = true) (hi : 0 ≤ E.hb.timer) :
    ∃ t x, Timed.Reachable E t ∧ beatTimes t.log = [0] ∧ (x, E.hb.timer.toNat) ∈ t.log ∧ x.ev.op = .sendErr .heartbeatExpired := by
  obtain ⟨w, l₁, l₂, ht, hv⟩ := Timed.early (E := E) (k := 1) (d := E.hb.timer) (v := (1, 0, [.ackSelect, .sendErr .heartbeatExpired, .monSelect]))
    (g := fun l₁ l₂ => (l₁.countP Timed.isBeat, l₂.countP Timed.isBeat, l₂.map fun x => x.ev.op))
    (cs := openingBeatOf E.mode ++ go 3 1 ++ beat (List.replicate 128 0) ++ [.deliver []] ++ go 2 2 ++ [.loop 2])
    (c := .run 3 .timer) (ds := [.sync 3 2]) (by
      obtain ⟨mode, cfg, ⟨en, a, b, c⟩, ms⟩ := E
      simp only at he
      subst he
      cases mode <;> kernel_rfl) (fun e hk => by rw [Timed.kind_after, hk]; rfl) hi
  simp only [Prod.mk.injEq] at hv
  obtain ⟨v1, v2, v3⟩ := hv
  have : Op.sendErr .heartbeatExpired ∈ l₂.map fun x => x.ev.op := by rw [v3]; simp
  obtain ⟨x, hx, hxe⟩ := List.mem_map.mp this
  refine ⟨_, x, ht, ?_, List.mem_append_right _ (List.mem_map.mpr ⟨x, hx, rfl⟩), hxe⟩
  show beatTimes (_ ++ _) = _
  rw [beatTimes, List.filterMap_append, ← beatTimes, ← beatTimes, Timed.beatTimes_const, Timed.beatTimes_const, v1, v2]
  rfl

/-- The hypotheses are about the configuration. -/
example : E₁.hb.enabled = true ∧ 0 ≤ E₁.hb.timer := ⟨rfl, by decide⟩

/-- C94: and `Dial` or `Accept` can return `ErrTimeout` after exactly ten seconds. -/
theorem c94_open_tight (E : Env) : ∃ t x, Timed.Reachable E t ∧ (x, 10 * 1000000000) ∈ t.log ∧ x.ev.op = .opened .timeout := by
  obtain ⟨w, l₁, l₂, ht, hv⟩ := Timed.early (E := E) (k := 3) (d := tenSeconds) (v := [.estSelect, .sctpClose, .opened .timeout])
    (g := fun l₁ l₂ => l₂.map fun x => x.ev.op) (cs := []) (c := .run 0 .timer) (ds := go 0 2) (by kernel_rfl)
    (fun e hk => by rw [Timed.kind_after, hk]; rfl) (by decide)
  have : Op.opened .timeout ∈ l₂.map fun x => x.ev.op := by rw [hv]; simp
  obtain ⟨x, hx, hxe⟩ := List.mem_map.mp this
  exact ⟨_, x, ht, List.mem_append_right _ (List.mem_map.mpr ⟨x, hx, rfl⟩), hxe⟩

/-- An example for `c94_clock`, `c94_intervals` and `c94_work`: two heartbeats, the second an interval of one second after the first. -/
example : ∃ t, Timed.Reachable ⟨.client, E₀.cfg, ⟨true, 1000000000, 2000000000, []⟩, 1⟩ t ∧ beatTimes t.log = [0, 1000000000] :=
  c94_spacing_tight rfl (by decide)

end M3.Conn
