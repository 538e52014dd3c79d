import Verif.Lemmas.Conn.Wake
import Verif.Lemmas.Conn.Active
import Verif.Lemmas.Conn.Sched
import Verif.Props.MessageLayout
import Verif.Spec.Beats

/- The goroutine that sends heartbeats: C73. -/

set_option autoImplicit false
set_option linter.unusedSimpArgs false

namespace M3.Conn

open Spec

/-- The heartbeat of the code, whose header is that of a heartbeat with 128 zeros. -/
def beatMsg (d : Bytes) : M3UA :=
  .heartbeat { Msg.Heartbeat.new (some (Param.newHeartbeatData (List.replicate 128 0))) with
    heartbeatData := some (Param.newHeartbeatData d) }

theorem beat_wire {d : Bytes} (hd : d.length = 128) : (beatMsg d).wire = message 1 3 3 [tlv 9 d] := by
  have hl : ∀ d' : Bytes, d'.length = 128 → (Msg.Heartbeat.new (some (Param.newHeartbeatData d'))).header = ⟨1, 0, 3, 3, 140, []⟩ := by
    intro d' hd'
    show (⟨1, 0, 3, 3, UInt32.ofNat (8 + (4 + d'.length + if d'.length % 4 = 0 then 0 else 4 - d'.length % 4)), []⟩ : Header) = _
    rw [hd']
    rfl
  have h : beatMsg d = .heartbeat (Msg.Heartbeat.new (some (Param.newHeartbeatData d))) := by
    unfold beatMsg
    simp only
    rw [hl _ List.length_replicate, ← hl d hd]
    rfl
  rw [h, M3UA.wire, ← M3UA.encodes_iff.mp (c17_heartbeat (some (Param.newHeartbeatData d)))]
  rfl

theorem beatLoop_eq : beatLoop = .op .rand fun r =>
    match r with
    | none => .op (.sendErr .rand) fun _ => .ret none
    | some d => .op .info fun i => .op (.write (beatMsg d).wire (sigInfo (beatMsg d) i)) fun r =>
      match r with
      | none => .op (.sendErr .failedToWriteSignal) fun _ => .ret none
      | some _ => .op .setBeat fun _ => .op .ackSelect fun r =>
        match r with
        | .ctx => .ret none
        | .closed => .ret none
        | .timer => .op (.sendErr .heartbeatExpired) fun _ => .ret none
        | .ack => .op .sleepSelect fun r => match r with
          | true => .ret none
          | false => .ret (some .beatLoop) := by
  unfold beatLoop
  show Prog.op _ _ = _
  congr 1; funext r
  cases r with
  | none => rfl
  | some d =>
    simp only [writeSignal_eq]
    show Prog.op _ _ = _
    congr 1; funext i
    show Prog.op _ _ = _
    congr 1; funext r
    cases r with
    | none => rfl
    | some n =>
      show Prog.op _ _ = _
      congr 1; funext _
      show Prog.op _ _ = _
      congr 1; funext r
      cases r with
      | ack =>
        show Prog.op _ _ = _
        congr 1; funext r
        cases r <;> rfl
      | _ => rfl

theorem beat_rounds (E : Env) : WP (Hist fun s _ => ∃ rest b, BeatRound (s ++ rest) b) .beatLoop
    (fun s r => BeatRound s r.isSome ∧ ∀ g, r = some g → g = .beatLoop) [] (body E .beatLoop) := by
  rw [body, beatLoop_eq, wp_op]
  refine ⟨⟨_, _, BeatRound.noRandom⟩, fun r hr => ?_⟩
  cases r with
  | none => exact wp_op.mpr ⟨⟨[⟨.sendErr .rand, ()⟩], _, BeatRound.noRandom⟩, fun _ _ => wp_ret.mpr ⟨.noRandom, nofun⟩⟩
  | some d =>
    have hd : d.length = 128 := hr
    simp only [wp_op]
    refine ⟨⟨(beaten d none).drop 1 ++ [⟨.sendErr .failedToWriteSignal, ()⟩], _, .unsent d hd⟩, fun i hi => ?_⟩
    obtain rfl : i = ⟨3, 0⟩ := hi
    have hw := beat_wire hd
    have hs := sigInfo_std (beatMsg d)
    generalize (beatMsg d).wire = b at *
    generalize sigInfo (beatMsg d) ⟨3, 0⟩ = j at *
    subst hw hs
    refine ⟨⟨(beaten d none).drop 2 ++ [⟨.sendErr .failedToWriteSignal, ()⟩], _, .unsent d hd⟩, fun r _ => ?_⟩
    cases r with
    | none => exact wp_op.mpr ⟨⟨[⟨.sendErr .failedToWriteSignal, ()⟩], _, .unsent d hd⟩,
        fun _ _ => wp_ret.mpr ⟨.unsent d hd, nofun⟩⟩
    | some n =>
      simp only [wp_op]
      refine ⟨⟨[⟨.setBeat, ()⟩, ⟨.ackSelect, AckEv.ctx⟩], _, .cancelled d n hd⟩, fun _ _ =>
        ⟨⟨[⟨.ackSelect, AckEv.ctx⟩], _, .cancelled d n hd⟩, fun r _ => ?_⟩⟩
      cases r with
      | ctx => exact wp_ret.mpr ⟨.cancelled d n hd, nofun⟩
      | closed => exact wp_ret.mpr ⟨.closed d n hd, nofun⟩
      | timer => exact wp_op.mpr ⟨⟨[⟨.sendErr .heartbeatExpired, ()⟩], _, .expired d n hd⟩,
          fun _ _ => wp_ret.mpr ⟨.expired d n hd, nofun⟩⟩
      | ack =>
        refine wp_op.mpr ⟨⟨[⟨.sleepSelect, true⟩], _, .acked d n true hd⟩, fun r _ => ?_⟩
        cases r with
        | true => exact wp_ret.mpr ⟨.acked d n true hd, nofun⟩
        | false => exact wp_ret.mpr ⟨.acked d n false hd, fun g hg => (Option.some.inj hg).symm⟩

/-- Who goes on to the loop of `heartbeat`. -/
theorem into_beatLoop {E : Env} {g : Gor} {h : List Ev} (hp : Path (body E g) h (.ret (some .beatLoop))) :
    g = .beatLoop ∨ (g = .heartbeat ∧ E.hb.enabled = true ∧ h = [⟨.waitEnter, ()⟩, ⟨.waitLeave, ()⟩]) := by
  have hg : g = .beatLoop ∨ g = .heartbeat := by
    refine Triv.path (g := g) (Q := fun _ r => r = some .beatLoop → g = .beatLoop ∨ g = .heartbeat) ?_ hp rfl
    cases g with
    | monitorLoop =>
      obtain ⟨mode, cfg, hb, ms⟩ := E
      cases mode <;> wp_code [Triv.ok_eq, Triv.may_eq, Triv.next_eq] <;> simp
    | packet raw =>
      rw [body, packet_eq]
      cases hp : M3UA.parse raw with
      | ok m => cases m <;> wp_code [Triv.ok_eq, Triv.may_eq, Triv.next_eq] <;> simp
      | _ => wp_code []
    | api c => cases c <;> wp_code [Triv.ok_eq, Triv.may_eq, Triv.next_eq]
    | _ => wp_code [Triv.ok_eq, Triv.may_eq, Triv.next_eq] <;> simp
  rcases hg with rfl | rfl
  · exact .inl rfl
  · refine .inr ⟨rfl, ?_⟩
    have hp : Path (.op .waitEnter fun _ => .op .waitLeave fun _ =>
      if E.hb.enabled = true then .ret (some Gor.beatLoop) else .ret none) h (.ret (some .beatLoop)) := by
      have hb : body E .heartbeat = .op .waitEnter fun _ => .op .waitLeave fun _ =>
          if E.hb.enabled = true then .ret (some Gor.beatLoop) else .ret none := rfl
      rwa [hb] at hp
    cases hp with | cons hp =>
    cases hp with | cons hp =>
    revert hp
    show Path (if E.hb.enabled = true then _ else _) _ _ → _
    split
    · rename_i he
      intro hp
      obtain ⟨rfl, -⟩ := Path.ret_iff.mp hp
      exact ⟨he, rfl⟩
    · intro hp
      cases (Path.ret_iff.mp hp).2

/-- What a goroutine in the loop of `heartbeat` did before its present round. -/
theorem beat_trail {E : Env} {i : Nat} {pre : List Rec} (h : Trail E i pre .beatLoop) (hr : Hist.Real (pre.map Rec.ev)) :
    ∃ (before : List Ev) (rounds : List (List Ev)), pre.map Rec.ev = before ++ rounds.flatten ∧
      (∀ r ∈ rounds, BeatRound r true) ∧
      (before = [] ∨ (E.hb.enabled = true ∧ before = [⟨.waitEnter, ()⟩, ⟨.waitLeave, ()⟩])) := by
  generalize hg : Gor.beatLoop = g at h
  induction h with
  | nil => exact ⟨[], [], rfl, by simp, .inl rfl⟩
  | @snoc pre g g' h ht hp ih =>
    subst hg
    have hm : (h.map fun e => (⟨i, g, e⟩ : Rec)).map Rec.ev = h := by
      rw [List.map_map]; exact List.map_id h
    rw [List.map_append, hm] at hr ⊢
    rcases into_beatLoop hp with rfl | ⟨rfl, he, rfl⟩
    · obtain ⟨before, rounds, h1, h2, h3⟩ := ih (fun e he => hr e (List.mem_append_left _ he)) rfl
      have := Hist.path (beat_rounds E) (fun e he => hr e (List.mem_append_right _ he)) hp
      refine ⟨before, rounds ++ [h], by simp [h1], fun r hr => ?_, h3⟩
      rcases List.mem_append.mp hr with hr | hr
      · exact h2 r hr
      · obtain rfl := List.mem_singleton.mp hr
        simpa using this.1
    · rw [ht.once rfl]
      exact ⟨_, [], by simp, by simp, .inr ⟨he, rfl⟩⟩

theorem noLeave {l : List Ev} {b : Bool} (h : BeatRound l b) : ∀ e ∈ l, e.op ≠ .waitLeave := by
  cases h <;> simp [beaten]

/-- C73: what the goroutine that sends heartbeats has done. Heartbeats are enabled; it has waited first; then come complete
rounds, and a last one that may be incomplete. The last one is complete if the goroutine has ended. -/
theorem c73_rounds {E : Env} {w : World} (h : Reachable E w) {i : Nat} {t : Thread} (ht : w.threads[i]? = some t)
    (hg : t.gor = .beatLoop) :
    E.hb.enabled = true ∧ ∃ (rounds : List (List Ev)) (last : List Ev),
      (w.of i).map Rec.ev = [⟨.waitEnter, ()⟩, ⟨.waitLeave, ()⟩] ++ rounds.flatten ++ last ∧
      (∀ r ∈ rounds, BeatRound r true) ∧ (∃ rest b, BeatRound (last ++ rest) b) ∧
      (∀ r, t.prog = .ret r → BeatRound last r.isSome) := by
  obtain ⟨hp, pre, hpre, htr⟩ := (Follows.reach h).2 i t ht
  obtain ⟨x, hx, hxo⟩ := Wake.left h ht hg
  rw [hg] at hp hpre htr
  have hreal := Hist.real_of h i
  have hm : (t.hist.map fun e => (⟨i, .beatLoop, e⟩ : Rec)).map Rec.ev = t.hist := by
    rw [List.map_map]; exact List.map_id _
  have hx' : x.ev ∈ (w.of i).map Rec.ev := List.mem_map.mpr ⟨x, hx, rfl⟩
  rw [hpre, List.map_append, hm] at hreal hx' ⊢
  obtain ⟨before, rounds, h1, h2, h3⟩ := beat_trail htr fun e he => hreal e (List.mem_append_left _ he)
  have hw := Hist.now (beat_rounds E) (fun e he => hreal e (List.mem_append_right _ he)) hp
  rw [List.nil_append] at hw
  have hlast : ∃ rest b, BeatRound (t.hist ++ rest) b := by
    revert hw
    cases t.prog with
    | ret r => exact fun hw => ⟨[], _, by rw [List.append_nil]; exact (wp_ret.mp hw).1⟩
    | op o k => exact fun hw => (wp_op.mp hw).1
  have hret : ∀ r, t.prog = .ret r → BeatRound t.hist r.isSome := fun r hr => by
    rw [hr] at hw; exact (wp_ret.mp hw).1
  rcases h3 with rfl | ⟨he, rfl⟩
  · exfalso
    rw [h1, List.nil_append] at hx'
    rcases List.mem_append.mp hx' with hx' | hx'
    · obtain ⟨r, hr, hx'⟩ := List.mem_flatten.mp hx'
      exact noLeave (h2 r hr) _ hx' hxo
    · obtain ⟨rest, b, hb⟩ := hlast
      exact noLeave hb _ (List.mem_append_left _ hx') hxo
  · exact ⟨he, rounds, t.hist, by rw [h1], h2, hlast, hret⟩

/-- Who wakes the goroutine that sends heartbeats. -/
theorem broadcasts (E : Env) (g : Gor) : WP (Hist fun s o => o = .broadcast → .sendEst ∈ s.map Ev.op ∨ .sctpClose ∈ s.map Ev.op) g
    (fun _ _ => True) [] (body E g) := by
  cases g with
  | monitorLoop =>
    obtain ⟨mode, cfg, hb, ms⟩ := E
    cases mode <;> wp_code [Hist.ok_eq, Hist.may_eq, Hist.next_eq] <;> simp [List.map_append]
  | packet raw =>
    rw [body, packet_eq]
    cases hp : M3UA.parse raw with
    | ok m => cases m <;> wp_code [Hist.ok_eq, Hist.may_eq, Hist.next_eq] <;> simp
    | _ => wp_code []
  | api c => cases c <;> wp_code [Hist.ok_eq, Hist.may_eq, Hist.next_eq] <;> simp
  | _ => wp_code [Hist.ok_eq, Hist.may_eq, Hist.next_eq] <;> simp

theorem wake_reason {E : Env} {w : World} (h : Reachable E w) (hb : Wake.Did .broadcast w.trace) :
    activated w.trace ∨ shut w.trace := by
  obtain ⟨x, hx, ho⟩ := hb
  have hm : x ∈ w.of x.tid := List.mem_filter.mpr ⟨hx, by simp⟩
  obtain ⟨l₁, l₂, hl⟩ := List.append_of_mem hm
  obtain ⟨pre, h₁, rfl, hP⟩ := Hist.iter h hl (broadcasts E x.gor)
  have hin : ∀ o, o ∈ h₁.map Ev.op → ∃ y ∈ w.trace, y.ev.op = o := by
    intro o ho
    obtain ⟨e, he, rfl⟩ := List.mem_map.mp ho
    refine ⟨⟨x.tid, x.gor, e⟩, (List.mem_filter.mp (show _ ∈ w.of x.tid by rw [hl]; simp [he])).1, rfl⟩
  rcases hP ho with hP | hP
  · exact .inl ((Active.reach h).2 (Wake.est h (hin _ hP)))
  · exact .inr (hin _ hP)

/-- C73: the first heartbeat is not sent before the connection was active, unless the library has closed it. -/
theorem c73_after {E : Env} {w : World} (h : Reachable E w) {l₁ l₂ : List Rec} {x : Rec}
    (hl : w.trace = l₁ ++ x :: l₂) (hx : x.gor = .beatLoop) : activated l₁ ∨ shut l₁ := by
  obtain ⟨w₀, l₃, k, hist, h₀, rfl, ht⟩ := h.was hl
  have mono : ∀ l l', activated l ∨ shut l → activated (l ++ l') ∨ shut (l ++ l') := by
    rintro l l' (⟨raw, h1, h2⟩ | ⟨z, h1, h2⟩)
    · exact .inl ⟨raw, by rw [receives, List.filterMap_append]; exact List.mem_append_left _ h1, h2⟩
    · exact .inr ⟨z, List.mem_append_left _ h1, h2⟩
  apply mono
  obtain ⟨y, hy, hyo⟩ := Wake.left h₀ ht hx
  obtain ⟨m₁, m₂, hm⟩ := List.append_of_mem (List.mem_filter.mp hy).1
  rw [hm]
  apply mono
  obtain ⟨j, g, o, r⟩ := y
  simp only at hyo
  subst hyo
  rcases h₀.at hm with ⟨w₁, sh', k, hist, h₁, rfl, -, hx⟩ | ⟨w₁, sh', ⟨_, _, oy, ry⟩, h₁, ⟨-, hs⟩ | ⟨-, hs⟩⟩
  · cases hx with
    | waitLeave hc => exact wake_reason h₁ (Wake.woken h₁ hc)
  · cases hs
  · cases hs

/-- For `c73_rounds`: Two rounds: the first heartbeat is acknowledged, the second is not, the goroutine reports that and ends. -/
example : ∃ w, Reachable E₁ w ∧ (w.threads[3]?.map fun t => (t.gor, t.prog.result?), (w.of 3).map fun x => x.ev.op) =
    (some (.beatLoop, some none), [.waitEnter, .waitLeave,
      .rand, .info, .write (message 1 3 3 [tlv 9 (List.replicate 128 0)]) ⟨3, 0⟩, .setBeat, .ackSelect, .sleepSelect,
      .rand, .info, .write (message 1 3 3 [tlv 9 (List.replicate 128 1)]) ⟨3, 0⟩, .setBeat, .ackSelect,
      .sendErr .heartbeatExpired]) :=
  reach_of (cs := openingBeat ++ go 3 1 ++ beat (List.replicate 128 0)
      ++ [.deliver (message 1 3 6 [tlv 9 (List.replicate 128 0)])] ++ go 2 2 ++ [.loop 2] ++ go 5 3 ++ [.sync 5 3, .run 3 .timer]
      ++ beat (List.replicate 128 1) ++ [.run 3 .timer, .sync 3 2]) (by kernel_rfl)

end M3.Conn
