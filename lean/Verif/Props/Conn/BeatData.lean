import Verif.Props.Conn.Compared
import Verif.Props.Conn.Monitor
import Verif.Props.Conn.Heartbeats
import Verif.Spec.Flow
import Verif.Lemmas.Conn.Solo

/- The heartbeat data in the configuration: C116. -/

set_option autoImplicit false
set_option linter.unusedSimpArgs false

namespace M3.Conn

open Spec

/-- The same connection with other data in its `HeartbeatInfo`. -/
def Env.withData (E : Env) (d : Bytes) : Env :=
  { E with cfg := { E.cfg with heartbeatInfo := E.cfg.heartbeatInfo.map fun hb => { hb with data := d } }, hb := { E.hb with data := d } }

namespace BeatData

theorem body_data (E : Env) (d : Bytes) (g : Gor) : body (E.withData d) g = body E g := by
  cases g <;> rfl

theorem fresh_data (E : Env) (d : Bytes) : Thread.fresh (E.withData d) = Thread.fresh E :=
  funext fun g => by rw [Thread.fresh, Thread.fresh, body_data]

def ref (sh : Shared) (b : BeatRef) : Shared := { sh with beatRef := b }

theorem exec {sh sh' : Shared} {o : Op} {r : Resp o} (h : Exec sh o r sh') (h1 : o ≠ .getBeat) (h2 : o ≠ .setBeat) (b : BeatRef) :
    Exec (ref sh b) o r (ref sh' b) := by
  cases h
  case getBeat => exact absurd rfl h1
  case setBeat => exact absurd rfl h2
  case state h => exact Exec.state (sh := ref sh b) h
  case getSt => exact Exec.getSt (sh := ref sh b)
  case info => exact Exec.info (sh := ref sh b)
  case ctxDone => exact Exec.ctxDone (sh := ref sh b)
  case broadcast => exact Exec.broadcast (sh := ref sh b)
  case readPart a1 a2 a3 _ _ => exact Exec.readPart (sh := ref sh b) (by assumption) (by assumption) (by assumption)
  all_goals (unfold ref; constructor <;> assumption)

/-- The world with the other data, as long as none were stored. -/
def swap (d : Bytes) (w : World) : World := { w with sh := ref w.sh (if noted w.trace then .buf else .own d) }

theorem step {E : Env} {d : Bytes} {w w' : World} (hp : Pointer E w) (hs : Step E w w') (ho : w'.trace = w.trace → w'.sh.beatRef = w.sh.beatRef)
    (hn : ∀ l₁ x l₂ b, w'.trace = l₁ ++ x :: l₂ → beat? x.ev = some b → noted l₁ = true) :
    Step (E.withData d) (swap d w) (swap d w') := by
  cases hs with
  | env hc he =>
    cases he with
    | deliver b => exact Step.env (w := swap d w) hc (.deliver b)
    | cancel => exact Step.env (w := swap d w) hc .cancel
    | otherBeat b =>
      have h1 := ho rfl
      have h2 := hp.ref
      have h3 : noted w.trace = false := by
        cases h : noted w.trace with
        | false => rfl
        | true => rw [h, if_pos rfl] at h2; rw [h2] at h1; cases h1
      have := Step.env (E := E.withData d) (w := swap d w) hc (.otherBeat d)
      simpa [swap, ref, h3] using this
  | call c hc hh =>
    have := Step.call (E := E.withData d) (w := swap d w) c hc hh
    rw [fresh_data] at this
    exact this
  | loop i g g' h hc ht =>
    have := Step.loop (E := E.withData d) (w := swap d w) i g g' h hc ht
    rw [fresh_data] at this
    exact this
  | crash i g h o k hc ht hx =>
    exact Step.crash (E := E.withData d) (w := swap d w) i g h o k hc ht (by cases hx <;> constructor <;> assumption)
  | @run sh' i g h o k r hc ht hx =>
    have key : ∀ b', Exec (swap d w).sh o r (ref sh' b') → (b' = if noted (w.trace ++ [⟨i, g, o, r⟩]) then .buf else .own d) →
        Step (E.withData d) (swap d w) (swap d ⟨sh', w.threads.set i ⟨g, h ++ [⟨o, r⟩], k r⟩ ++ (spawned o).map (Thread.fresh E),
          w.trace ++ [⟨i, g, o, r⟩]⟩) := by
      intro b' hx' hb
      have := Step.run (E := E.withData d) (w := swap d w) i g h o k r hc ht hx'
      rw [fresh_data, hb] at this
      exact this
    by_cases h1 : o = .getBeat
    · subst h1
      have hn' : noted w.trace = true := hn w.trace _ [] _ rfl rfl
      have h2 := hp.ref
      rw [hn', if_pos rfl] at h2
      have e : (swap d w).sh = w.sh := by
        simp only [swap, hn', if_true, ref]
        rw [← h2]
      refine key .buf ?_ (by rw [noted_append, hn']; rfl)
      rw [e]
      cases hx
      have : ref w.sh .buf = w.sh := by rw [ref, ← h2]
      rw [this]
      exact .getBeat
    · by_cases h2 : o = .setBeat
      · subst h2
        cases hx
        exact key .buf .setBeat (by rw [noted_append]; simp)
      · refine key _ (exec hx h1 h2 _) ?_
        rw [noted_append]
        simp [h2]
  | @sync sh' i j gi gj hi hj oi oj ki kj ri rj hc hij hti htj hx =>
    have hnn : noted (w.trace ++ [⟨i, gi, oi, ri⟩, ⟨j, gj, oj, rj⟩]) = noted w.trace := by
      cases hx <;> simp [noted]
    have := Step.sync (E := E.withData d) (w := swap d w) i j gi gj hi hj oi oj ki kj ri rj hc hij hti htj
      (sh' := ref sh' (if noted w.trace then .buf else .own d)) (by cases hx <;> constructor <;> assumption)
    simp only [swap, hnn] at this ⊢
    exact this

theorem swapped {E : Env} {w : World} (h : Alone E w) (d : Bytes) (hn : ∀ l₁ x l₂ b, w.trace = l₁ ++ x :: l₂ → beat? x.ev = some b → noted l₁ = true) :
    Alone (E.withData d) (swap d w) ∧ Pointer E w := by
  induction h with
  | init =>
    refine ⟨?_, rfl, rfl, fun l₁ x l₂ b hl => by cases l₁ <;> cases hl⟩
    have e : swap d (M3.Conn.init E) = M3.Conn.init (E.withData d) := by
      rw [M3.Conn.init, M3.Conn.init, fresh_data]; rfl
    rw [e]; exact .init
  | @step w w' h hs ho ih =>
    obtain ⟨l, hl⟩ := hs.trace
    obtain ⟨h1, h2⟩ := ih fun l₁ x l₂ b e => hn l₁ x (l₂ ++ l) b (by rw [hl, e]; simp)
    refine ⟨.step h1 (step h2 hs ho hn) fun ht => ?_, h2.step hs ho⟩
    have ht : w'.trace = w.trace := ht
    simp only [swap, ref, ht]

end BeatData

/-- C116: the data in the configuration are ignored. Take any execution of a connection that does not share its configuration in which no Heartbeat Ack is
looked at before the first heartbeat was stored. With any other data in the configuration there is the same execution: the same goroutines have done the same
things with the same results, and everything is the same but the data themselves. -/
theorem c116_ignored {E : Env} {w : World} (h : Alone E w) (hn : ∀ l₁ x l₂ b, w.trace = l₁ ++ x :: l₂ → beat? x.ev = some b → noted l₁ = true) (d : Bytes) :
    ∃ w', Alone (E.withData d) w' ∧ w'.trace = w.trace ∧ w'.threads = w.threads ∧ { w'.sh with beatRef := w.sh.beatRef } = w.sh ∧
      (noted w.trace = true → w' = w) := by
  obtain ⟨h1, h2⟩ := BeatData.swapped h d hn
  refine ⟨_, h1, rfl, rfl, rfl, fun hn' => ?_⟩
  have h3 := h2.ref
  rw [hn', if_pos rfl] at h3
  simp only [BeatData.swap, BeatData.ref, hn', if_true]
  rw [← h3]

namespace BeatData

/-- What the goroutine that sends heartbeats sends, after what it did in this round. -/
def Drawn (s : List Ev) (o : Op) : Prop :=
  ∀ b i, o = .write b i → ∃ d j, d.length = 128 ∧ s = [⟨.rand, some d⟩, ⟨.info, j⟩] ∧ b = message 1 3 3 [tlv 9 d]

theorem drawn_wp (E : Env) : WP (Hist Drawn) .beatLoop (fun _ _ => True) [] (body E .beatLoop) := by
  rw [body, beatLoop_eq, wp_op]
  refine ⟨nofun, fun r hr => ?_⟩
  cases r with
  | none => exact wp_op.mpr ⟨nofun, fun _ _ => wp_ret.mpr trivial⟩
  | some d =>
    have hd : d.length = 128 := hr
    simp only [wp_op]
    refine ⟨nofun, fun i hi => ⟨fun b' j hb => ?_, fun r _ => ?_⟩⟩
    · cases hb
      exact ⟨d, i, hd, rfl, beat_wire hd⟩
    · cases r with
      | none => exact wp_op.mpr ⟨nofun, fun _ _ => wp_ret.mpr trivial⟩
      | some n =>
        simp only [wp_op]
        refine ⟨nofun, fun _ _ => ⟨nofun, fun r _ => ?_⟩⟩
        cases r with
        | ack =>
          refine wp_op.mpr ⟨nofun, fun r _ => ?_⟩
          cases r <;> exact wp_ret.mpr trivial
        | timer => exact wp_op.mpr ⟨nofun, fun _ _ => wp_ret.mpr trivial⟩
        | _ => exact wp_ret.mpr trivial

end BeatData

/-- C116: every Heartbeat the library sends carries the 128 random bytes that were drawn last, never the data in the configuration. -/
theorem c116_random {E : Env} {w : World} (h : Reachable E w) {l₁ l₂ : List Rec} {x : Rec} (hl : w.trace = l₁ ++ x :: l₂) (hu : ofUser x.gor = false) {s : Sent}
    (hs : sent? x.ev = some s) (ho : octets s.bytes = (3, 3)) :
    ∃ d, d.length = 128 ∧ drawn l₁ = some d ∧ s.bytes = message 1 3 3 [tlv 9 d] := by
  have hx : x ∈ w.trace := by rw [hl]; simp
  have hg : x.gor = .beatLoop := by
    have hm := c71_sender h hx hs
    cases hg : x.gor <;> rw [hg] at hm hu <;> simp only [mayCarry, ho, ofUser, Bool.true_eq_false] at hm hu
    · rcases hm with hm | ⟨-, hm | hm⟩ <;> revert hm <;> decide
    · revert hm
      split <;> simp
  have hof : w.of x.tid = l₁.filter (·.tid == x.tid) ++ x :: l₂.filter (·.tid == x.tid) := by
    rw [World.of, hl, List.filter_append, List.filter_cons_of_pos (by simp)]
  obtain ⟨pre, h₁, he, hP⟩ := Hist.iter h hof (by rw [hg]; exact BeatData.drawn_wp E)
  obtain ⟨i, g, o, r⟩ := x
  simp only at hg
  subst hg
  cases o <;> simp only [sent?, reduceCtorEq, Option.some.injEq] at hs
  subst hs
  obtain ⟨d, j, hd, rfl, hb⟩ := hP _ _ rfl
  refine ⟨d, hd, ?_, hb⟩
  have key : drawn l₁ = drawn (l₁.filter (·.tid == i)) := by
    unfold drawn
    congr 1
    rw [List.filterMap_filter]
    have cong : ∀ {f f' : Rec → Option (List UInt8)} (l : List Rec), (∀ y ∈ l, f y = f' y) → l.filterMap f = l.filterMap f' := by
      intro f f' l hf
      induction l with
      | nil => rfl
      | cons a l ih =>
        rw [List.filterMap_cons, List.filterMap_cons, hf a List.mem_cons_self, ih fun y hy => hf y (List.mem_cons_of_mem _ hy)]
    refine cong _ fun y hy => ?_
    by_cases hi : y.tid = i
    · simp [hi]
    · obtain ⟨k, g, o, r⟩ := y
      cases o <;> simp only [beq_iff_eq, hi, if_false]
      have hy' : (⟨k, g, .rand, r⟩ : Rec) ∈ w.trace := by rw [hl]; exact List.mem_append_left _ hy
      have hr := (Role.reach h _ hy').2
      have hg : g = .beatLoop := by simpa [Role.role] using hr
      exact absurd ((Solo.reach h hx hy' rfl).mp hg).1 hi
  rw [key, he]
  simp [drawn, List.filterMap_append]

/-- C116: in particular not the text that `EnableHeartbeat` puts there, `config.go:67-73`, although its comment says that this is what a heartbeat carries. -/
theorem c116_default {E : Env} {w : World} (h : Reachable E w) {x : Rec} (hx : x ∈ w.trace) (hu : ofUser x.gor = false) {s : Sent} (hs : sent? x.ev = some s) :
    s.bytes ≠ message 1 3 3 [tlv 9 Config.defaultBeat] := by
  intro he
  obtain ⟨l₁, l₂, hl⟩ := List.append_of_mem hx
  obtain ⟨d, hd, -, hb⟩ := c116_random h hl hu hs (by rw [he]; decide +kernel)
  have h1 : s.bytes.length = 60 := by rw [he]; decide +kernel
  have h2 : s.bytes.length = 140 := by
    rw [hb]
    simp [message, tlv, be16, be32, pad, hd]
  omega

theorem BeatData.late {l : List Rec} (h : (l.takeWhile fun x => x.ev.op ≠ .setBeat).all (fun x => (beat? x.ev).isNone) = true) :
    ∀ l₁ x l₂ b, l = l₁ ++ x :: l₂ → beat? x.ev = some b → noted l₁ = true := by
  rintro l₁ x l₂ b rfl hb
  cases hn : noted l₁ with
  | true => rfl
  | false =>
    have h1 : ∀ y ∈ l₁, decide (y.ev.op ≠ .setBeat) = true := by
      intro y hy
      have := List.any_eq_false.mp hn y hy
      simpa using this
    have h2 : decide (x.ev.op ≠ .setBeat) = true := by
      obtain ⟨i, g, o, r⟩ := x
      cases o <;> first | rfl | cases hb
    rw [List.takeWhile_append_of_pos h1, List.takeWhile_cons_of_pos (p := fun x : Rec => decide (x.ev.op ≠ .setBeat)) h2] at h
    have := List.all_eq_true.mp h x (by simp)
    rw [hb] at this
    cases this

/-- For `c116_ignored` and `c116_random`: a client sends a heartbeat and the answer is compared with the data sent. -/
example : ∃ w, Alone E₁ w ∧ (∀ l₁ x l₂ b, w.trace = l₁ ++ x :: l₂ → beat? x.ev = some b → noted l₁ = true) ∧ noted w.trace = true ∧
    w.trace.filterMap (fun x => beat? x.ev) = [sevens] ∧ ((sends w.trace).map Sent.bytes).getLast? = some (message 1 3 3 [tlv 9 sevens]) := by
  obtain ⟨w, h1, h2⟩ := reach_alone (E := E₁) (cs := openingBeat ++ go 3 1 ++ beat sevens ++ [.deliver (message 1 3 6 [tlv 9 sevens])] ++ go 2 2 ++ [.loop 2] ++ go 5 3)
    (f := fun w => ((w.trace.takeWhile fun x => x.ev.op ≠ .setBeat).all (fun x => (beat? x.ev).isNone), noted w.trace,
      w.trace.filterMap (fun x => beat? x.ev), ((sends w.trace).map Sent.bytes).getLast?))
    (v := (true, true, [sevens], some (message 1 3 3 [tlv 9 sevens]))) (by kernel_rfl) (by rfl)
  simp only [Prod.mk.injEq] at h2
  exact ⟨w, h1, BeatData.late h2.1, h2.2⟩

end M3.Conn
