import Verif.Lemmas.Conn.CalmSent
import Verif.Lemmas.Conn.CalmRest
import Verif.Props.Conn.Session
import Verif.Props.Conn.Handshake

/- Two endpoints of this library and their users: C85. -/

set_option autoImplicit false
set_option linter.unusedSimpArgs false

namespace M3.Conn

open Spec

namespace Calm

theorem meaning_wire {m : M3UA} {k : Kind} {cls typ : Nat} {ps : List Bytes} (h : M3UA.Constructed m) (hw : m.WellTagged) (hk : m.kind = some k)
    (hb : m.wire = message 1 cls typ ps) : meaning m.wire = some k := by
  obtain ⟨m', h1, h2, -⟩ := Shake.parse_wire m h hw
  simp only [meaning, h1]
  rw [if_pos (by rw [hb]; rfl), h2, hk]

theorem meets_of {E : Env} {m : Mode} {a b : Bytes} (h : hand E = [a, b]) (ha : a.length ≤ 1500) (hb : b.length ≤ 1500)
    (h1 : expectedAt m 0 a) (h2 : expectedAt m 1 b) : Meets E m := by
  refine ⟨?_, ?_, ?_⟩
  · rw [h]; intro x hx
    rcases List.mem_cons.mp hx with rfl | hx
    · exact ha
    · rw [List.mem_singleton.mp hx]; exact hb
  · rw [h]; intro i x hx
    match i with
    | 0 => cases hx; exact h1
    | 1 => cases hx; exact h2
    | i + 2 => simp at hx
  · rw [h]; intro x hx
    rcases List.mem_cons.mp hx with rfl | hx
    · rw [show meaning x = _ from h1]; cases m <;> (intro h; cases h)
    · rw [List.mem_singleton.mp hx, show meaning b = _ from h2]; cases m <;> (intro h; cases h)

theorem meets_client {Ec Es : Env} {c s : Values} (h : Setup Ec Es c s) : Meets Ec Es.mode := by
  obtain ⟨e1, e2, e3, e4⟩ := Shake.bytes_eq h
  rw [h.server]
  refine meets_of (by rw [hand, h.client]; rfl) (Shake.lengths h .up) (Shake.lengths h .act) ?_ ?_
  · refine meaning_wire (.aspUp _ _) ?_ rfl e1
    rw [h.cvals.asp]
    refine Shake.asp_tagged (v := c) fun n p hp => ?_
    cases n <;> simp_all [M3UA.field, Msg.AspUp.new, Msg.AspUp.setLength, Shake.set_asp, Shake.set_tmt, Shake.set_rcs]
  · refine meaning_wire (.aspActive _ _ _) ?_ rfl e3
    rw [h.cvals.tmt, h.cvals.rcs]
    refine Shake.mode_tagged (v := c) (fun rs => Shake.rcs_length h.fits.1) fun n p hp => ?_
    cases n <;> simp_all [M3UA.field, Msg.AspActive.new, Msg.AspActive.setLength, Shake.set_asp, Shake.set_tmt, Shake.set_rcs]

theorem meets_server {Ec Es : Env} {c s : Values} (h : Setup Ec Es c s) : Meets Es Ec.mode := by
  obtain ⟨e1, e2, e3, e4⟩ := Shake.bytes_eq h
  rw [h.client]
  refine meets_of (by rw [hand, h.server]; rfl) (Shake.lengths h .upAck) (Shake.lengths h .actAck) ?_ ?_
  · refine meaning_wire (.aspUpAck _ _) ?_ rfl e2
    rw [h.svals.asp]
    refine Shake.asp_tagged (v := s) fun n p hp => ?_
    cases n <;> simp_all [M3UA.field, Msg.AspUpAck.new, Msg.AspUpAck.setLength, Shake.set_asp, Shake.set_tmt, Shake.set_rcs]
  · refine meaning_wire (.aspActiveAck _ _ _) ?_ rfl e4
    rw [h.svals.tmt, h.svals.rcs]
    refine Shake.mode_tagged (v := s) (fun rs => Shake.rcs_length h.fits.2) fun n p hp => ?_
    cases n <;> simp_all [M3UA.field, Msg.AspActiveAck.new, Msg.AspActiveAck.setLength, Shake.set_asp, Shake.set_tmt, Shake.set_rcs]

/-- How much has been sent when an endpoint rests. -/
theorem idle_sent {E : Env} (hE : E.maxStream ≠ 0) {w : World} (h : Reachable E w) (hu : Undisturbed E.mode w ∧ Still E w.trace) (hr : Idle E w) :
    need E.mode (receives w.trace).length .ready ≤ w.out.length := by
  obtain ⟨ss, hl, hi, hj⟩ := roles_sent hE h hu.1 hu.2
  obtain ⟨i, hs, -⟩ := rest h hl hi hr
  obtain ⟨t₁, t₂, ht, a, -⟩ := hj.sent i _ hs rfl
  have := congrArg List.length a
  rw [List.length_map, List.length_take, hand_length] at this
  have hn : need E.mode (receives w.trace).length .ready ≤ 2 := by
    cases E.mode <;> simp only [need] <;> omega
  have ho : w.out.length = (sends t₁).length + (sends t₂).length := by
    rw [World.out, List.length_map, ht, sends_append, List.length_append]
  rw [ho, this, Nat.min_eq_left hn]
  exact Nat.le_add_right _ _

end Calm

section
variable {Ec Es : Env} {c s : Values} {p : Link}

/-- Both ends are undisturbed. -/
theorem talk_both (hs : Setup Ec Es c s) (hn : Ec.maxStream ≠ 0 ∧ Es.maxStream ≠ 0) (h : Link.Reachable Ec Es p) (ha : Peaceful p.a)
    (hb : Peaceful p.b) (ho : InOrder p) :
    (Undisturbed Ec.mode p.a ∧ Calm.Still Ec p.a.trace) ∧ Undisturbed Es.mode p.b ∧ Calm.Still Es p.b.trace :=
  Calm.both hn.1 hn.2 (Calm.meets_client hs) (Calm.meets_server hs) hs.quiet.1 hs.quiet.2 h ha hb ho

/-- C85: a client and a server of this library, connected by an association that neither changes nor duplicates anything and lets nothing overtake the
handshake. While nothing disturbs them from outside, neither panics or reports an error, whatever the schedule and whatever payloads the users send. -/
theorem c85_safe (hs : Setup Ec Es c s) (hn : Ec.maxStream ≠ 0 ∧ Es.maxStream ≠ 0) (h : Link.Reachable Ec Es p) (ha : Peaceful p.a)
    (hb : Peaceful p.b) (ho : InOrder p) :
    p.a.sh.crashed = false ∧ complaints p.a.trace = [] ∧ p.b.sh.crashed = false ∧ complaints p.b.trace = [] := by
  obtain ⟨⟨h1, -⟩, h2, -⟩ := talk_both hs hn h ha hb ho
  obtain ⟨a1, a2, -⟩ := c84_safe hn.1 h.ends.1 h1
  obtain ⟨b1, b2, -⟩ := c84_safe hn.2 h.ends.2 h2
  exact ⟨a1, a2, b1, b2⟩

/-- C85: when nothing is under way and the library has nothing left to do at either end, `Dial` and `Accept` have returned the connection, both ends are
active, and everything that arrived has been read. -/
theorem c85_rest (hs : Setup Ec Es c s) (hn : Ec.maxStream ≠ 0 ∧ Es.maxStream ≠ 0) (h : Link.Reachable Ec Es p) (ha : Peaceful p.a)
    (hb : Peaceful p.b) (ho : InOrder p) (ht : p.toA = [] ∧ p.toB = []) (hi : Idle Ec p.a ∧ Idle Es p.b) :
    .conn ∈ p.a.openings ∧ .conn ∈ p.b.openings ∧ p.a.sh.st = .active ∧ p.b.sh.st = .active ∧ p.a.sh.inbox = [] ∧ p.b.sh.inbox = [] := by
  obtain ⟨h1, h2⟩ := talk_both hs hn h ha hb ho
  obtain ⟨a1, a2, -, a3, -⟩ := c84_rest hn.1 h.ends.1 h1.1 hi.1
  obtain ⟨b1, b2, -, b3, -⟩ := c84_rest hn.2 h.ends.2 h2.1 hi.2
  have na := Calm.idle_sent hn.1 h.ends.1 h1 hi.1
  have nb := Calm.idle_sent hn.2 h.ends.2 h2 hi.2
  have pa := (Calm.half h hn.1 (Calm.meets_client hs) h1.1 h1.2 ha).2.1.length_eq
  have pb := (Calm.half h.flip hn.2 (Calm.meets_server hs) h2.1 h2.2 hb).2.1.length_eq
  simp only [Link.flip, ht.1, ht.2, a1, b1, List.append_nil] at pa pb
  rw [hs.client] at na
  rw [hs.server] at nb
  simp only [Calm.need] at na nb
  have ka : 2 ≤ (receives p.a.trace).length := by omega
  have kb : 2 ≤ (receives p.b.trace).length := by omega
  exact ⟨a3 ka, b3 kb, by rw [a2, Calm.stage_active ka], by rw [b2, Calm.stage_active kb], a1, b1⟩

open Classical in
/-- C85: and every payload that was sent has been taken by a reader at the other end or is in the queue there, exactly as often as it was sent, unless
the queue is full; the same for what the calls were given that have succeeded. -/
theorem c85_delivered (hs : Setup Ec Es c s) (hn : Ec.maxStream ≠ 0 ∧ Es.maxStream ≠ 0) (h : Link.Reachable Ec Es p) (ha : Peaceful p.a)
    (hb : Peaceful p.b) (ho : InOrder p) (ht : p.toA = [] ∧ p.toB = []) (hi : Idle Ec p.a ∧ Idle Es p.b)
    (hq : p.a.sh.dataQ.length < 65535 ∧ p.b.sh.dataQ.length < 65535) (P : ProtocolDataPayload → Prop) :
    ((takes p.b.trace).countP (fun x => ∃ pd, x = some pd ∧ P pd) + p.b.sh.dataQ.countP (fun pd => P pd) =
      (sends p.a.trace).countP (fun s => ∃ pd, carries s.bytes pd ∧ P pd) ∧
    (takes p.a.trace).countP (fun x => ∃ pd, x = some pd ∧ P pd) + p.a.sh.dataQ.countP (fun pd => P pd) =
      (sends p.b.trace).countP (fun s => ∃ pd, carries s.bytes pd ∧ P pd)) ∧
    p.a.threads.countP (fun t => transmits Ec.cfg P t.gor ∧ succeeded t) ≤
      (takes p.b.trace).countP (fun x => ∃ pd, x = some pd ∧ P pd) + p.b.sh.dataQ.countP (fun pd => P pd) ∧
    p.b.threads.countP (fun t => transmits Es.cfg P t.gor ∧ succeeded t) ≤
      (takes p.a.trace).countP (fun x => ∃ pd, x = some pd ∧ P pd) + p.a.sh.dataQ.countP (fun pd => P pd) := by
  obtain ⟨h1, h2⟩ := talk_both hs hn h ha hb ho
  obtain ⟨-, ca, -, cb⟩ := c85_safe hs hn h ha hb ho
  obtain ⟨a1, -, -, -, a3⟩ := c84_rest hn.1 h.ends.1 h1.1 hi.1
  obtain ⟨b1, -, -, -, b3⟩ := c84_rest hn.2 h.ends.2 h2.1 hi.2
  have a4 := a3.resolve_right (by omega)
  have b4 := b3.resolve_right (by omega)
  have la : ∀ s ∈ sends p.a.trace, s.bytes.length ≤ 1500 := fun s hs' =>
    (Calm.half h hn.1 (Calm.meets_client hs) h1.1 h1.2 ha).1 _ (List.mem_map.mpr ⟨s, hs', rfl⟩)
  have lb : ∀ s ∈ sends p.b.trace, s.bytes.length ≤ 1500 := fun s hs' =>
    (Calm.half h.flip hn.2 (Calm.meets_server hs) h2.1 h2.2 hb).1 _ (List.mem_map.mpr ⟨s, hs', rfl⟩)
  have ra : ∀ m, .unexpectedMessage (.data m) ∉ complaints p.a.trace := by rw [ca]; exact fun _ h => by cases h
  have rb : ∀ m, .unexpectedMessage (.data m) ∉ complaints p.b.trace := by rw [cb]; exact fun _ h => by cases h
  exact ⟨⟨c83_sent h la ht.2 b1 hb.ctx b4 rb P, c83_sent h.flip lb ht.1 a1 ha.ctx a4 ra P⟩,
    c83_written h la ht.2 b1 hb.ctx b4 rb P, c83_written h.flip lb ht.1 a1 ha.ctx a4 ra P⟩

end

/-- C85: users who only call `Write` and `WriteToStream`, and not with more than fits into a datagram of 1500 bytes, only send payloads. -/
theorem c85_plain {E : Env} {w : World} (h : Reachable E w) (hc : DataConfig E.cfg) (hp : PlainUser w) (hctx : w.sh.ctxDone = false)
    (huser : ∀ x ∈ w.trace, x.gor ≠ .api .close) (hcalm : ∀ x ∈ w.trace, ofUser x.gor = false → x.ev.calm = true)
    (hlen : ∀ s ∈ sends w.trace, s.bytes.length ≤ 1500) : Peaceful w := by
  refine ⟨hctx, huser, hcalm, fun x hx hu s hs => ⟨hlen s (List.mem_filterMap.mpr ⟨x, hx, hs⟩), ?_⟩⟩
  obtain ⟨hr1, hr2⟩ := Follows.reach h
  have hi := hr1 x hx
  have ht : w.threads[x.tid]? = some w.threads[x.tid] := List.getElem?_eq_getElem hi
  generalize w.threads[x.tid] = t at ht
  have hof : x ∈ w.of x.tid := List.mem_filter.mpr ⟨hx, by simp⟩
  obtain ⟨c, hg⟩ : ∃ c, x.gor = .api c := by
    cases hg : x.gor with
    | api c => exact ⟨c, rfl⟩
    | _ => rw [hg] at hu; cases hu
  have htg : t.gor = .api c := by
    obtain ⟨h1, pre, h2, h3⟩ := hr2 x.tid t ht
    have hof' := hof
    rw [h2] at hof'
    rcases List.mem_append.mp hof' with hx' | hx'
    · exact absurd hg (h3.not_api hx')
    · obtain ⟨e, -, he⟩ := List.mem_map.mp hx'
      rw [← he] at hg
      exact hg
  have hm := (call_sends h ht htg).2 s (List.mem_filterMap.mpr ⟨x, hof, hs⟩)
  have := hp t (List.mem_of_getElem? ht)
  rw [htg] at this
  cases c <;> simp only [meant] at hm <;> simp only at this
  · exact ⟨_, hm ▸ (c43_understood hc this).2⟩
  · exact ⟨_, hm ▸ (c43_understood hc this).2⟩

open Classical in
/-- C85: so what was written with success has arrived, with the addresses of the writer's configuration. -/
theorem c85_write {Ec Es : Env} {c s : Values} {p : Link} (hs : Setup Ec Es c s) (hn : Ec.maxStream ≠ 0 ∧ Es.maxStream ≠ 0)
    (h : Link.Reachable Ec Es p) (ha : Peaceful p.a) (hb : Peaceful p.b) (ho : InOrder p) (ht : p.toA = [] ∧ p.toB = [])
    (hi : Idle Ec p.a ∧ Idle Es p.b) (hq : p.a.sh.dataQ.length < 65535 ∧ p.b.sh.dataQ.length < 65535) (b : Bytes)
    (hl : 12 + b.length ≤ maxValue) :
    (DataConfig Ec.cfg → p.a.threads.countP (fun t => (t.gor = .api (.write b) ∨ ∃ s, t.gor = .api (.writeToStream b s)) ∧ succeeded t) ≤
      (takes p.b.trace).count (some (payloadFor Ec.cfg b)) + p.b.sh.dataQ.count (payloadFor Ec.cfg b)) ∧
    (DataConfig Es.cfg → p.b.threads.countP (fun t => (t.gor = .api (.write b) ∨ ∃ s, t.gor = .api (.writeToStream b s)) ∧ succeeded t) ≤
      (takes p.a.trace).count (some (payloadFor Es.cfg b)) + p.a.sh.dataQ.count (payloadFor Es.cfg b)) := by
  have key : ∀ {cfg : Config} (_ : DataConfig cfg) (ts : List Thread) (tk : List (Option ProtocolDataPayload)) (q : List ProtocolDataPayload)
      (P : ProtocolDataPayload → Prop) (_ : ∀ pd, P pd ↔ pd = payloadFor cfg b),
      ts.countP (fun t => transmits cfg P t.gor ∧ succeeded t) ≤
        tk.countP (fun x => ∃ pd, x = some pd ∧ P pd) + q.countP (fun pd => P pd) →
      ts.countP (fun t => (t.gor = .api (.write b) ∨ ∃ s, t.gor = .api (.writeToStream b s)) ∧ succeeded t) ≤
        tk.count (some (payloadFor cfg b)) + q.count (payloadFor cfg b) := by
    intro cfg hd ts tk q P hP h
    refine Nat.le_trans (List.countP_mono_left fun t _ hw => ?_) (Nat.le_trans h (Nat.add_le_add ?_ ?_))
    · simp only [decide_eq_true_iff] at hw ⊢
      refine ⟨?_, hw.2⟩
      rcases hw.1 with hg | ⟨s, hg⟩
      · exact ⟨_, _, _, hg, rfl, (c43_understood hd hl).2, (hP _).mpr rfl⟩
      · exact ⟨_, _, _, hg, rfl, (c43_understood hd hl).2, (hP _).mpr rfl⟩
    · refine List.countP_mono_left fun x _ hx => ?_
      simp only [decide_eq_true_iff] at hx
      obtain ⟨pd, rfl, hx⟩ := hx
      rw [(hP _).mp hx]; simp
    · refine List.countP_mono_left fun x _ hx => ?_
      simp only [decide_eq_true_iff] at hx
      rw [(hP _).mp hx]; simp
  exact ⟨fun hd => key hd _ _ _ _ (fun _ => Iff.rfl) (c85_delivered hs hn h ha hb ho ht hi hq _).2.1,
    fun hd => key hd _ _ _ _ (fun _ => Iff.rfl) (c85_delivered hs hn h ha hb ho ht hi hq _).2.2⟩

/-- For `c85_rest` and `c85_plain`: Both users write once, the server's user reads: all premises hold. -/
example : ∃ p, Setup E₀ { E₀ with mode := .server } ⟨none, none, none⟩ ⟨none, none, none⟩ ∧ E₀.maxStream ≠ 0 ∧
    Link.Reachable E₀ { E₀ with mode := .server } p ∧ Peaceful p.a ∧ Peaceful p.b ∧ InOrder p ∧ p.toA = [] ∧ p.toB = [] ∧
    Idle E₀ p.a ∧ Idle { E₀ with mode := .server } p.b ∧
    (p.a.threads.filter (fun t => ofUser t.gor)).map (fun t => (t.gor, t.hist.filterMap returned?)) = [(.api (.write [8, 9]), [.wrote 56])] ∧
    (p.b.threads.filter (fun t => ofUser t.gor)).map (fun t => (t.gor, t.hist.filterMap returned?)) =
      [(.api (.write [7]), [.wrote 56]), (.api .readPD, [.pd (payloadFor E₀.cfg [8, 9])])] ∧
    (p.a.sh.dataQ, p.b.sh.dataQ) = ([payloadFor E₀.cfg [7]], []) := by
  obtain ⟨p, h1, h2⟩ := link_of (Ea := E₀) (Eb := { E₀ with mode := .server }) (f := fun p =>
      ((p.a.sh.ctxDone, p.a.trace.all (fun x => x.gor ≠ .api .close), p.a.trace.all (fun x => ofUser x.gor || x.ev.calm),
        sends (p.a.trace.filter (fun x => ofUser x.gor)) |>.map (·.bytes), receives p.a.trace, p.a.out),
      (p.b.sh.ctxDone, p.b.trace.all (fun x => x.gor ≠ .api .close), p.b.trace.all (fun x => ofUser x.gor || x.ev.calm),
        sends (p.b.trace.filter (fun x => ofUser x.gor)) |>.map (·.bytes), receives p.b.trace, p.b.out),
        p.toA, p.toB, idleB p.a, idleB p.b,
        (p.a.threads.filter (fun t => ofUser t.gor)).map (fun t => (t.gor, t.hist.filterMap returned?)),
        (p.b.threads.filter (fun t => ofUser t.gor)).map (fun t => (t.gor, t.hist.filterMap returned?)), p.a.sh.dataQ, p.b.sh.dataQ))
    (cs := shake ++ onA (go 3 1) ++ onB (go 3 1) ++ onA ([.call (.write [8, 9]), .run 6 (.std 2)] ++ go 6 2 ++ [.run 6 (.std 28)] ++ go 6 1) ++
      onB ([.call (.write [7]), .run 6 (.std 2)] ++ go 6 2 ++ [.run 6 (.std 28)] ++ go 6 1) ++
      .toB 0 :: onB (go 2 2 ++ [.loop 2] ++ go 7 3 ++ [.sync 7 2] ++ go 8 2 ++ go 2 4 ++ [.call .readPD] ++ go 9 3) ++
      .toA 0 :: onA (go 2 2 ++ [.loop 2] ++ go 7 3 ++ [.sync 7 2] ++ go 8 2 ++ go 2 4))
    (v := ((false, true, true, [dataOf E₀.cfg [8, 9]], [message 1 3 4 [], message 1 4 3 [], dataOf E₀.cfg [7]],
        [message 1 3 1 [], message 1 4 1 [], dataOf E₀.cfg [8, 9]]),
      (false, true, true, [dataOf E₀.cfg [7]], [message 1 3 1 [], message 1 4 1 [], dataOf E₀.cfg [8, 9]],
        [message 1 3 4 [], message 1 4 3 [], dataOf E₀.cfg [7]]), [], [], true, true,
      [(.api (.write [8, 9]), [.wrote 56])], [(.api (.write [7]), [.wrote 56]), (.api .readPD, [.pd (payloadFor E₀.cfg [8, 9])])],
      [payloadFor E₀.cfg [7]], [])) (by kernel_rfl)
  simp only [Prod.mk.injEq] at h2
  obtain ⟨⟨a1, a2, a3, a4, a5, a6⟩, ⟨b1, b2, b3, b4, b5, b6⟩, h3, h4, h5, h6, h7, h8, h9, h10⟩ := h2
  have peaceful : ∀ {w : World} {b : Bytes} {pd : ProtocolDataPayload}, w.sh.ctxDone = false → (w.trace.all fun x => decide (x.gor ≠ .api .close)) = true →
      (w.trace.all fun x => ofUser x.gor || x.ev.calm) = true → (sends (w.trace.filter fun x => ofUser x.gor)).map (·.bytes) = [b] →
      b.length ≤ 1500 → carries b pd = true → Peaceful w := by
    intro w b pd h1 h2 h3 h4 h5 h6
    refine ⟨h1, by simpa using h2, ?_, ?_⟩
    · intro x hx hu
      have := List.all_eq_true.mp h3 x hx
      simpa [hu] using this
    · intro x hx hu s hs
      have : s.bytes ∈ (sends (w.trace.filter fun x => ofUser x.gor)).map (·.bytes) :=
        List.mem_map.mpr ⟨s, List.mem_filterMap.mpr ⟨x, List.mem_filter.mpr ⟨hx, hu⟩, hs⟩, rfl⟩
      rw [h4, List.mem_singleton] at this
      rw [this]
      exact ⟨h5, pd, h6⟩
  refine ⟨p, ⟨rfl, rfl, ⟨rfl, rfl⟩, ⟨rfl, rfl, rfl⟩, ⟨rfl, rfl, rfl⟩, by decide, by decide⟩, by decide, h1,
    peaceful (pd := payloadFor E₀.cfg [8, 9]) a1 a2 a3 a4 (by decide +kernel) (by kernel_rfl),
    peaceful (pd := payloadFor E₀.cfg [7]) b1 b2 b3 b4 (by decide +kernel) (by kernel_rfl),
    ⟨by rw [b5, a6]; exact ⟨[dataOf E₀.cfg [8, 9]], rfl⟩, by rw [a5, b6]; exact ⟨[dataOf E₀.cfg [7]], rfl⟩⟩, h3, h4, idleB_sound h5, idleB_sound h6,
    h7, h8, by rw [h9, h10]⟩

end M3.Conn
