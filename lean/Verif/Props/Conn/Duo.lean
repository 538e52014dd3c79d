import Verif.Lemmas.Conn.PulseDuo
import Verif.Lemmas.Conn.PulseRest
import Verif.Props.Conn.Pulse
import Verif.Props.Conn.Replies
import Verif.Props.Conn.Talk

/- Two endpoints of this library with heartbeats: C96. -/

set_option autoImplicit false
set_option linter.unusedSimpArgs false

namespace M3.Spec

open M3.Conn

/-- A client and a server, as in `Setup`, whether they send heartbeats or not. -/
structure Partners (Ec Es : Env) (c s : Values) : Prop where
  client : Ec.mode = .client
  server : Es.mode = .server
  cvals : c.Of Ec
  svals : s.Of Es
  fits : (message 1 4 1 c.modeTlvs).length ≤ 1500 ∧ (message 1 4 3 s.modeTlvs).length ≤ 1500
  streams : Ec.maxStream ≠ 0 ∧ Es.maxStream ≠ 0

/-- Nothing but the two endpoints disturbs the session, no message of the handshake was overtaken, and no answer to a heartbeat came before the
data of the heartbeat were stored. -/
structure Undisrupted (p : Link) : Prop where
  a : Peaceful p.a
  b : Peaceful p.b
  order : InOrder p
  hurryA : Unhurried p.a.trace
  hurryB : Unhurried p.b.trace

end M3.Spec

namespace M3.Conn

open Spec

namespace Pulse

open Calm (Meets hand_length)

/-- The endpoint without heartbeats. -/
def off (E : Env) : Env := { E with hb := { E.hb with enabled := false } }

theorem meets {Ec Es : Env} {c s : Values} (h : Partners Ec Es c s) : Meets Ec Es.mode ∧ Meets Es Ec.mode := by
  have hs : Setup (off Ec) (off Es) c s :=
    ⟨h.client, h.server, ⟨rfl, rfl⟩, ⟨h.cvals.asp, h.cvals.tmt, h.cvals.rcs⟩, ⟨h.svals.asp, h.svals.tmt, h.svals.rcs⟩, h.fits⟩
  have h1 := Calm.meets_client hs
  have h2 := Calm.meets_server hs
  exact ⟨⟨h1.short, h1.expected, h1.mute⟩, ⟨h2.short, h2.expected, h2.mute⟩⟩

theorem duo {Ec Es : Env} {c s : Values} (hs : Partners Ec Es c s) {p : Link} (h : Apart Ec Es p) (hu : Undisrupted p) :
    Fine Ec p.a ∧ Fine Es p.b :=
  both hs.streams.1 hs.streams.2 (meets hs).1 (meets hs).2 h hu.a hu.b hu.hurryA hu.hurryB hu.order

/-- How much has been sent when an endpoint rests. -/
theorem idle_sent {E : Env} (hE : E.maxStream ≠ 0) {w : World} (h : Alone E w) (hu : Attended E.mode w) (hr : Idle E w) :
    need E.mode (receives w.trace).length .ready ≤ w.out.length := by
  obtain ⟨ss, hl, hi, hj, -⟩ := roles_sent hE h hu
  obtain ⟨i, hs, -⟩ := rest h.reachable hl hi hr
  obtain ⟨⟨t₁, t₂, ht, a, -⟩, -⟩ := hj.sent i _ hs rfl
  have := congrArg List.length a
  rw [List.length_map, List.length_take, hand_length] at this
  have hn : need E.mode (receives w.trace).length .ready ≤ 2 := by
    cases E.mode <;> simp only [need] <;> omega
  have ho : w.out.length = (sends t₁).length + (sends t₂).length := by
    rw [World.out, List.length_map, ht, sends_append, List.length_append]
  rw [ho, this, Nat.min_eq_left hn]
  exact Nat.le_add_right _ _

def answersTo (d : Bytes) : Reply.Weights where
  raw b := if b = beatOf d then 1 else 0
  sent b := if b = replyOf d then 1 else 0

/-- Heartbeats with certain data have been answered. -/
theorem answered {d : Bytes} (hd : d.length = 128) {E : Env} {w : World} (h : Reachable E w) (hc : w.sh.ctxDone = false) (hs : Settled w)
    (hr : complaints w.trace = []) :
    (receives w.trace).countP (fun b => decide (b = beatOf d)) ≤ w.out.countP (fun b => decide (b = replyOf d)) := by
  have hb := Reply.bound (W := answersTo d) ⟨fun b b' h => ?_, fun b h => ?_⟩ h hc hs
  · rw [show (answersTo d).raw = fun b => if decide (b = beatOf d) = true then 1 else 0 from by
      funext b; simp [answersTo], tot_countP] at hb
    refine Nat.le_trans hb ?_
    rw [World.out, List.countP_map, sends, List.countP_filterMap, ← tot_countP]
    rw [complaints, List.filterMap_eq_nil_iff] at hr
    generalize w.trace = l at hr
    clear hb
    induction l with
    | nil => exact Nat.le_refl _
    | cons x l ih =>
      rw [tot_cons, tot_cons]
      refine Nat.add_le_add ?_ (ih fun y hy => hr y (List.mem_cons_of_mem _ hy))
      have := hr x List.mem_cons_self
      obtain ⟨i, g, o, r⟩ := x
      cases g <;> cases o <;> first | (cases this; done) | simp [Reply.Weights.ev, answersTo, sent?]
  · simp only [answersTo]
    by_cases hm : b = beatOf d
    · subst hm
      simp only [Flow.Answer, (beat_facts hd).1, (beat_facts hd).2.1] at h
      simp at h
      simp [h.2.symm]
    · rw [if_neg hm]; exact Nat.zero_le _
  · refine if_neg fun hm => h ?_
    rw [hm]
    exact .inr (.inr (.inr (.inr (beat_facts hd).1)))

theorem wrote_out (d : Bytes) (w : World) : wroteN d w.trace ≤ w.out.countP (fun b => decide (b = beatOf d)) := by
  rw [World.out, List.countP_map, sends, List.countP_filterMap, wroteN]
  refine List.countP_mono_left fun x _ hx => ?_
  obtain ⟨i, g, o, r⟩ := x
  cases g <;> cases o <;> first | (cases hx; done) | exact hx

theorem settled {E : Env} (hE : E.maxStream ≠ 0) {w : World} (h : Alone E w) (hu : Attended E.mode w) (hr : Idle E w)
    (hq : w.sh.dataQ.length < 65535) : Settled w := by
  rcases (c95_rest hE h hu hr).2.2.2.2 with h | h
  · exact h
  · omega

end Pulse

section
variable {Ec Es : Env} {c s : Values} {p : Link}

/-- C96: a client and a server of this library, connected by an association that neither changes nor duplicates anything and lets nothing overtake the
handshake, either of them with heartbeats or not, each with a `HeartbeatInfo` of its own. While nothing disturbs them from outside and no answer is
handled before the data of the heartbeat were stored, neither panics or reports an error, and each is an attentive peer of the other, so that C95
applies to both. -/
theorem c96_safe (hs : Partners Ec Es c s) (h : Apart Ec Es p) (hu : Undisrupted p) :
    p.a.sh.crashed = false ∧ complaints p.a.trace = [] ∧ p.b.sh.crashed = false ∧ complaints p.b.trace = [] ∧
    Attended Ec.mode p.a ∧ Attended Es.mode p.b := by
  obtain ⟨ha, hb⟩ := Pulse.duo hs h hu
  obtain ⟨a1, a2, -⟩ := c95_safe hs.streams.1 h.alone ha.att
  obtain ⟨b1, b2, -⟩ := c95_safe hs.streams.2 h.flip.alone hb.att
  exact ⟨a1, a2, b1, b2, ha.att, hb.att⟩

/-- C96: each end has received an answer to each of its heartbeats, but possibly the last one. -/
theorem c96_count (hs : Partners Ec Es c s) (h : Apart Ec Es p) (hu : Undisrupted p) :
    stores p.a.trace = heartbeatAcks p.a.trace + (if awaiting p.a.trace then 1 else 0) ∧
    stores p.b.trace = heartbeatAcks p.b.trace + (if awaiting p.b.trace then 1 else 0) := by
  obtain ⟨ha, hb⟩ := Pulse.duo hs h hu
  exact ⟨c95_count hs.streams.1 h.alone ha.att, c95_count hs.streams.2 h.flip.alone hb.att⟩

/-- C96: when nothing is under way and the library has nothing left to do at either end, `Dial` and `Accept` have returned the connection, both ends are
active, and everything that arrived has been read. -/
theorem c96_rest (hs : Partners Ec Es c s) (h : Apart Ec Es p) (hu : Undisrupted p) (ht : p.toA = [] ∧ p.toB = []) (hi : Idle Ec p.a ∧ Idle Es p.b) :
    .conn ∈ p.a.openings ∧ .conn ∈ p.b.openings ∧ p.a.sh.st = .active ∧ p.b.sh.st = .active ∧ p.a.sh.inbox = [] ∧ p.b.sh.inbox = [] := by
  obtain ⟨h1, h2⟩ := Pulse.duo hs h hu
  obtain ⟨a1, a2, -, a3, -⟩ := c95_rest hs.streams.1 h.alone h1.att hi.1
  obtain ⟨b1, b2, -, b3, -⟩ := c95_rest hs.streams.2 h.flip.alone h2.att hi.2
  have na := Pulse.idle_sent hs.streams.1 h.alone h1.att hi.1
  have nb := Pulse.idle_sent hs.streams.2 h.flip.alone h2.att hi.2
  have pa := (Pulse.half h hs.streams.1 (Pulse.meets hs).1 h1 hu.a).1.length_eq
  have pb := (Pulse.half h.flip hs.streams.2 (Pulse.meets hs).2 h2 hu.b).1.length_eq
  have b1 : p.b.sh.inbox = [] := b1
  have b2 : p.b.sh.st = stageAt (receives p.b.trace).length := b2
  have b3 : 2 ≤ (receives p.b.trace).length → .conn ∈ p.b.openings := b3
  simp only [Link.flip, ht.1, ht.2, a1, b1, List.append_nil] at pa pb nb
  rw [hs.client] at na
  rw [hs.server] at nb
  simp only [Pulse.need] at na nb
  have ka : 2 ≤ (receives p.a.trace).length := by omega
  have kb : 2 ≤ (receives p.b.trace).length := by omega
  exact ⟨a3 ka, b3 kb, by rw [a2, Calm.stage_active ka], by rw [b2, Calm.stage_active kb], a1, b1⟩

/-- C96: heartbeats go on. Once the goroutine that sends heartbeats has been woken at an end where they are enabled, there is always something left to do:
either something is under way or one of the libraries has work. -/
theorem c96_beats (hs : Partners Ec Es c s) (h : Apart Ec Es p) (hu : Undisrupted p) (ht : p.toA = [] ∧ p.toB = []) (hi : Idle Ec p.a ∧ Idle Es p.b)
    (hq : p.a.sh.dataQ.length < 65535 ∧ p.b.sh.dataQ.length < 65535) :
    (Ec.hb.enabled = true → ∀ x ∈ p.a.trace, x.ev.op ≠ .waitLeave) ∧ (Es.hb.enabled = true → ∀ x ∈ p.b.trace, x.ev.op ≠ .waitLeave) := by
  have key : ∀ {Ea Eb : Env} {q : Link}, Apart Ea Eb q → Ea.maxStream ≠ 0 → Eb.maxStream ≠ 0 → Calm.Meets Ea Eb.mode → Calm.Meets Eb Ea.mode →
      Pulse.Fine Ea q.a → Pulse.Fine Eb q.b → Peaceful q.a → Peaceful q.b → q.toA = [] → q.toB = [] → Idle Ea q.a → Idle Eb q.b →
      q.b.sh.dataQ.length < 65535 → Ea.hb.enabled = true → ∀ x ∈ q.a.trace, x.ev.op ≠ .waitLeave := by
    intro Ea Eb q hq hEa hEb hMa hMb hfa hfb hpa hpb t1 t2 i1 i2 hn he x hx hx'
    have haw := c95_beats hEa hq.alone hfa.att i1 he ⟨x, hx, hx'⟩
    obtain ⟨d, hd, hlt⟩ := (Pulse.sent hEa hq.alone hfa.att).2.2.2 haw
    have hset := Pulse.settled hEb hq.flip.alone hfb.att i2 hn
    have h1 := Pulse.wrote_out d q.a
    have h2 := (Pulse.half hq hEa hMa hfa hpa).1.countP_eq (fun b => decide (b = Pulse.beatOf d))
    have h3 := Pulse.answered hd hq.flip.alone.reachable hfb.att.ctx hset (c95_safe hEb hq.flip.alone hfb.att).2.1
    have h4 := (Pulse.half hq.flip hEb hMb hfb hpb).1.countP_eq (fun b => decide (ackData b = some d))
    have ib : q.b.sh.inbox = [] := (c95_rest hEb hq.flip.alone hfb.att i2).1
    have ia := (c95_rest hEa hq.alone hfa.att i1).1
    simp only [Link.flip, ia, ib, t1, t2, List.append_nil] at h2 h3 h4
    have h5 : q.b.out.countP (fun b => decide (b = Pulse.replyOf d)) ≤ q.b.out.countP (fun b => decide (ackData b = some d)) :=
      List.countP_mono_left fun b _ hb => by
        simp only [decide_eq_true_iff] at hb ⊢
        rw [hb]; exact (Pulse.reply_facts hd).2.1
    unfold Pulse.acked at hlt
    omega
  obtain ⟨ha, hb⟩ := Pulse.duo hs h hu
  obtain ⟨m1, m2⟩ := Pulse.meets hs
  exact ⟨key h hs.streams.1 hs.streams.2 m1 m2 ha hb hu.a hu.b ht.1 ht.2 hi.1 hi.2 hq.2,
    key h.flip hs.streams.2 hs.streams.1 m2 m1 hb ha hu.b hu.a ht.2 ht.1 hi.2 hi.1 hq.1⟩

open Classical in
/-- C96: no payload is lost. When nothing is under way to an end or waiting there, and its handlers have ended, every payload that was sent to it has been
taken by a reader or is in the queue, exactly as often as it was sent. The other end, and the heartbeats, may be in the middle of anything. -/
theorem c96_delivered (hs : Partners Ec Es c s) (h : Apart Ec Es p) (hu : Undisrupted p) (P : ProtocolDataPayload → Prop) :
    (p.toB = [] → p.b.sh.inbox = [] → Settled p.b →
      (takes p.b.trace).countP (fun x => ∃ pd, x = some pd ∧ P pd) + p.b.sh.dataQ.countP (fun pd => P pd) =
        (sends p.a.trace).countP (fun s => ∃ pd, carries s.bytes pd ∧ P pd)) ∧
    (p.toA = [] → p.a.sh.inbox = [] → Settled p.a →
      (takes p.a.trace).countP (fun x => ∃ pd, x = some pd ∧ P pd) + p.a.sh.dataQ.countP (fun pd => P pd) =
        (sends p.b.trace).countP (fun s => ∃ pd, carries s.bytes pd ∧ P pd)) := by
  obtain ⟨ha, hb⟩ := Pulse.duo hs h hu
  obtain ⟨-, ca, -, cb, -⟩ := c96_safe hs h hu
  have la : ∀ s ∈ sends p.a.trace, s.bytes.length ≤ 1500 := fun s hs' =>
    Pulse.out_short hs.streams.1 (Pulse.meets hs).1 h.alone ha hu.a _ (List.mem_map.mpr ⟨s, hs', rfl⟩)
  have lb : ∀ s ∈ sends p.b.trace, s.bytes.length ≤ 1500 := fun s hs' =>
    Pulse.out_short hs.streams.2 (Pulse.meets hs).2 h.flip.alone hb hu.b _ (List.mem_map.mpr ⟨s, hs', rfl⟩)
  have ra : ∀ m, .unexpectedMessage (.data m) ∉ complaints p.a.trace := by rw [ca]; exact fun _ h => by cases h
  have rb : ∀ m, .unexpectedMessage (.data m) ∉ complaints p.b.trace := by rw [cb]; exact fun _ h => by cases h
  exact ⟨fun h1 h2 h3 => c83_sent h.reachable la h1 h2 hu.b.ctx h3 rb P, fun h1 h2 h3 => c83_sent h.reachable.flip lb h1 h2 hu.a.ctx h3 ra P⟩

end

/- What is needed to see that schedules meet the premises. -/

/-- The choice is not the data of another connection. -/
def LChoice.own : LChoice → Bool
  | .a c | .b c => !c.foreign
  | .toA _ | .toB _ => true

theorem linkStep_apart {Ea Eb : Env} {p q : Link} {c : LChoice} (hp : Apart Ea Eb p) (h : linkStep (body Ea) (body Eb) p c = some q)
    (hc : c.own = true) : Apart Ea Eb q := by
  refine .step hp (linkStep_sound h) ?_ ?_
  · cases c with
    | a c =>
      simp only [linkStep, localStep] at h
      cases hs : step (body Ea) p.a c with
      | none => rw [hs] at h; cases h
      | some w =>
        rw [hs] at h
        simp only at h
        split at h
        · rename_i a' he
          split at he
          · cases he; cases h
            exact step_alone hs (by simpa [LChoice.own] using hc)
          · cases he
        · cases h
    | b c =>
      simp only [linkStep] at h
      split at h
      · cases h; exact fun _ => rfl
      · cases h
    | toA i =>
      simp only [linkStep] at h
      split at h
      · cases h
      · split at h
        · cases h; exact fun _ => rfl
        · cases h
    | toB i =>
      simp only [linkStep] at h
      split at h
      · cases h
      · split at h
        · cases h; exact fun _ => rfl
        · cases h
  · cases c with
    | b c =>
      simp only [linkStep, localStep] at h
      cases hs : step (body Eb) p.b c with
      | none => rw [hs] at h; cases h
      | some w =>
        rw [hs] at h
        simp only at h
        split at h
        · rename_i a' he
          split at he
          · cases he; cases h
            exact step_alone hs (by simpa [LChoice.own] using hc)
          · cases he
        · cases h
    | a c =>
      simp only [linkStep] at h
      split at h
      · cases h; exact fun _ => rfl
      · cases h
    | toA i =>
      simp only [linkStep] at h
      split at h
      · cases h
      · split at h
        · cases h; exact fun _ => rfl
        · cases h
    | toB i =>
      simp only [linkStep] at h
      split at h
      · cases h
      · split at h
        · cases h; exact fun _ => rfl
        · cases h

theorem linkPlay_apart {Ea Eb : Env} {p q : Link} {cs : List LChoice} (hp : Apart Ea Eb p) (h : linkPlay (body Ea) (body Eb) p cs = some q)
    (hc : cs.all LChoice.own = true) : Apart Ea Eb q := by
  induction cs generalizing p with
  | nil => cases h; exact hp
  | cons c cs ih =>
    simp only [linkPlay] at h
    simp only [List.all_cons, Bool.and_eq_true] at hc
    cases hs : linkStep (body Ea) (body Eb) p c with
    | none => rw [hs] at h; cases h
    | some v => rw [hs] at h; exact ih (linkStep_apart hp hs hc.1) h hc.2

theorem apart_of {α : Type} {Ea Eb : Env} {cs : List LChoice} {f : Link → α} {v : α}
    (h : (linkPlay (body' Ea) (body' Eb) (.init Ea Eb) cs).map f = some v) (hc : cs.all LChoice.own = true) : ∃ p, Apart Ea Eb p ∧ f p = v := by
  cases hp : linkPlay (body' Ea) (body' Eb) (.init Ea Eb) cs with
  | none => rw [hp] at h; cases h
  | some w =>
    rw [hp] at h
    rw [← body_eq, ← body_eq] at hp
    exact ⟨w, linkPlay_apart .init hp hc, Option.some.inj h⟩

def unhurriedB (l : List Rec) : Bool :=
  (List.range l.length).all fun i => match l[i]? with
    | some ⟨_, _, ⟨.read _, some raw⟩⟩ => decide (meaning raw ≠ some .heartbeatAck) || !posted (l.take i)
    | _ => true

theorem unhurriedB_sound {l : List Rec} (h : unhurriedB l = true) : Unhurried l := by
  rintro l₁ ⟨i, g, o, r⟩ l₂ n raw rfl hx hm
  cases hx
  have := List.all_eq_true.mp h l₁.length (List.mem_range.mpr (by simp))
  simpa [hm] using this

def peaceB (good : List Bytes) (w : World) : Bool :=
  !w.sh.ctxDone && w.trace.all (fun x => x.gor ≠ .api .close) && w.trace.all (fun x => ofUser x.gor || x.ev.calm) &&
    (sends (w.trace.filter fun x => ofUser x.gor)).all fun s => good.contains s.bytes

theorem peaceB_sound {good : List Bytes} {w : World} (h : peaceB good w = true) (hg : ∀ b ∈ good, b.length ≤ 1500 ∧ ∃ pd, carries b pd) : Peaceful w := by
  simp only [peaceB, Bool.and_eq_true, Bool.not_eq_true'] at h
  obtain ⟨⟨⟨h1, h2⟩, h3⟩, h4⟩ := h
  refine ⟨h1, by simpa using h2, ?_, ?_⟩
  · intro x hx hu
    have := List.all_eq_true.mp h3 x hx
    simpa [hu] using this
  · intro x hx hu s hs
    have := List.all_eq_true.mp h4 s (List.mem_filterMap.mpr ⟨x, List.mem_filter.mpr ⟨hx, hu⟩, hs⟩)
    exact hg _ (by simpa using this)

def orderB (p : Link) : Bool := ((receives p.b.trace).take 2).isPrefixOf p.a.out && ((receives p.a.trace).take 2).isPrefixOf p.b.out

theorem orderB_sound {p : Link} (h : orderB p = true) : InOrder p := by
  simp only [orderB, Bool.and_eq_true, List.isPrefixOf_iff_prefix] at h
  exact h

def undisruptedB (good : List Bytes) (p : Link) : Bool :=
  peaceB good p.a && peaceB good p.b && orderB p && unhurriedB p.a.trace && unhurriedB p.b.trace

theorem undisruptedB_sound {good : List Bytes} {p : Link} (h : undisruptedB good p = true) (hg : ∀ b ∈ good, b.length ≤ 1500 ∧ ∃ pd, carries b pd) :
    Undisrupted p := by
  simp only [undisruptedB, Bool.and_eq_true] at h
  obtain ⟨⟨⟨⟨h1, h2⟩, h3⟩, h4⟩, h5⟩ := h
  exact ⟨peaceB_sound h1 hg, peaceB_sound h2 hg, orderB_sound h3, unhurriedB_sound h4, unhurriedB_sound h5⟩

/-- The handshake, when the goroutines that send heartbeats wait from the start. -/
def shakeBeat : List LChoice :=
  onA (go 2 1 ++ go 3 1 ++ (boot .client).drop 1) ++ onB (go 2 1 ++ go 3 1 ++ (boot .server).drop 1) ++
    shake.drop ((boot .client).length + (boot .server).length)

def S₁ : Env := { E₁ with mode := .server }

theorem partners₁ : Partners E₁ S₁ ⟨none, none, none⟩ ⟨none, none, none⟩ :=
  ⟨rfl, rfl, ⟨rfl, rfl, rfl⟩, ⟨rfl, rfl, rfl⟩, ⟨by decide, by decide⟩, by decide, by decide⟩

/-- Both ends send a heartbeat and answer that of the other; then the client's user sends a payload. All premises of `c96_safe`, `c96_count` and
`c96_delivered` are met. -/
example : ∃ p, Partners E₁ S₁ ⟨none, none, none⟩ ⟨none, none, none⟩ ∧ Apart E₁ S₁ p ∧ Undisrupted p ∧
    p.toA = [] ∧ p.toB = [] ∧ p.a.sh.inbox = [] ∧ p.b.sh.inbox = [] ∧ Settled p.a ∧ Settled p.b ∧
    (stores p.a.trace, heartbeats p.a.trace, heartbeatAcks p.a.trace) = (1, 1, 1) ∧
    (stores p.b.trace, heartbeats p.b.trace, heartbeatAcks p.b.trace) = (1, 1, 1) ∧ p.b.sh.dataQ = [payloadFor E₁.cfg [8, 9]] := by
  obtain ⟨p, h1, h2⟩ := apart_of (Ea := E₁) (Eb := S₁) (f := fun p =>
      (undisruptedB [dataOf E₁.cfg [8, 9]] p, p.toA, p.toB, p.a.sh.inbox, p.b.sh.inbox, settledB p.a, settledB p.b,
        (stores p.a.trace, heartbeats p.a.trace, heartbeatAcks p.a.trace), (stores p.b.trace, heartbeats p.b.trace, heartbeatAcks p.b.trace),
        p.b.sh.dataQ))
    (cs := shakeBeat ++ onA (go 3 1 ++ beat sevens) ++ onB (go 3 1) ++
      .toB 0 :: onB (go 2 2 ++ [.loop 2] ++ go 6 5 ++ [.sync 6 2] ++ go 2 4 ++ beat (List.replicate 128 8)) ++
      .toA 0 :: onA (go 2 2 ++ [.loop 2] ++ go 6 3 ++ [.sync 6 3] ++ go 6 1 ++ [.sync 6 2] ++ go 2 4) ++
      .toA 0 :: onA (go 2 2 ++ [.loop 2] ++ go 7 5 ++ [.sync 7 2] ++ go 2 4 ++ go 3 1) ++
      .toB 0 :: onB (go 2 2 ++ [.loop 2] ++ go 7 3 ++ [.sync 7 3] ++ go 7 1 ++ [.sync 7 2] ++ go 2 4) ++
      onA ([.call (.write [8, 9]), .run 8 (.std 2)] ++ go 8 2 ++ [.run 8 (.std 28)] ++ go 8 1) ++
      .toB 0 :: onB (go 2 2 ++ [.loop 2] ++ go 8 3 ++ [.sync 8 2] ++ go 9 2 ++ go 2 4))
    (v := (true, [], [], [], [], true, true, (1, 1, 1), (1, 1, 1), [payloadFor E₁.cfg [8, 9]])) (by kernel_rfl) (by kernel_rfl)
  simp only [Prod.mk.injEq] at h2
  obtain ⟨h2, h3, h4, h5, h6, h7, h8, ⟨h9, h10, h11⟩, ⟨h12, h13, h14⟩, h15⟩ := h2
  refine ⟨p, partners₁, h1, undisruptedB_sound h2 ?_, h3, h4, h5, h6, settledB_sound h7, settledB_sound h8, by rw [h9, h10, h11], by rw [h12, h13, h14], h15⟩
  intro b hb
  rw [List.mem_singleton] at hb
  rw [hb]
  exact ⟨by decide +kernel, payloadFor E₁.cfg [8, 9], by kernel_rfl⟩

/-- With heartbeats on at both ends and the goroutines that send them not yet waiting when the connection is established, the session comes to rest: the
wake-up is lost. All premises of `c96_rest` and `c96_beats` are met. -/
example : ∃ p, Partners E₁ S₁ ⟨none, none, none⟩ ⟨none, none, none⟩ ∧ Apart E₁ S₁ p ∧ Undisrupted p ∧ (p.toA = [] ∧ p.toB = []) ∧
    (Idle E₁ p.a ∧ Idle S₁ p.b) ∧ (p.a.sh.dataQ.length < 65535 ∧ p.b.sh.dataQ.length < 65535) ∧ E₁.hb.enabled = true ∧ S₁.hb.enabled = true := by
  obtain ⟨p, h1, h2⟩ := apart_of (Ea := E₁) (Eb := S₁) (f := fun p =>
      (undisruptedB [] p, p.toA, p.toB, waitB p.a, waitB p.b, p.a.sh.dataQ, p.b.sh.dataQ))
    (cs := shake ++ onA (go 3 1) ++ onB (go 3 1)) (v := (true, [], [], true, true, [], [])) (by kernel_rfl) (by rfl)
  simp only [Prod.mk.injEq] at h2
  obtain ⟨h2, h3, h4, h5, h6, h7, h8⟩ := h2
  exact ⟨p, partners₁, h1, undisruptedB_sound h2 (fun _ h => by cases h), ⟨h3, h4⟩, ⟨waitB_sound h5, waitB_sound h6⟩,
    ⟨by rw [h7]; decide, by rw [h8]; decide⟩, rfl, rfl⟩

/-- C96: the condition on the moment between a heartbeat and the storing of its data is needed. Two endpoints of this library, otherwise undisturbed, can
get into trouble with their heartbeats alone: the client refuses the server's correct answer as an unexpected message. -/
theorem c96_hurried : ∃ (Ec Es : Env) (c s : Values) (p : Link), Partners Ec Es c s ∧ Apart Ec Es p ∧ Peaceful p.a ∧ Peaceful p.b ∧ InOrder p ∧
    p.a.out = [message 1 3 1 [], message 1 4 1 [], message 1 3 3 [tlv 9 sevens]] ∧
    receives p.a.trace = [message 1 3 4 [], message 1 4 3 [], message 1 3 6 [tlv 9 sevens]] ∧ ackRefused p.a = true := by
  obtain ⟨p, h1, h2⟩ := apart_of (Ea := E₁) (Eb := S₁) (f := fun p => (peaceB [] p.a, peaceB [] p.b, orderB p, p.a.out, receives p.a.trace, ackRefused p.a))
    (cs := shakeBeat ++ onA (go 3 1 ++ [.loop 3, .run 3 (.rand sevens)] ++ go 3 2) ++ .toB 0 :: onB (go 2 2 ++ [.loop 2] ++ go 6 5) ++
      .toA 0 :: onA (go 2 2 ++ [.loop 2] ++ go 6 3 ++ [.sync 6 2]))
    (v := (true, true, true, [message 1 3 1 [], message 1 4 1 [], message 1 3 3 [tlv 9 sevens]],
      [message 1 3 4 [], message 1 4 3 [], message 1 3 6 [tlv 9 sevens]], true)) (by kernel_rfl) (by rfl)
  simp only [Prod.mk.injEq] at h2
  obtain ⟨h2, h3, h4, h5, h6, h7⟩ := h2
  exact ⟨E₁, S₁, _, _, p, partners₁, h1, peaceB_sound h2 (fun _ h => by cases h), peaceB_sound h3 (fun _ h => by cases h), orderB_sound h4, h5, h6, h7⟩

end M3.Conn
