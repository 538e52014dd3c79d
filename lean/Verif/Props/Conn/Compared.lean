import Verif.Lemmas.Conn.Role
import Verif.Lemmas.Conn.Hist
import Verif.Lemmas.Conn.Sched
import Verif.Spec.Handling

/- What the data of a Heartbeat Ack are compared with: C77. -/

set_option autoImplicit false
set_option linter.unusedSimpArgs false

namespace M3.Spec

open M3.Conn

/-- The last random data drawn for a heartbeat. -/
def drawn (l : List Rec) : Option (List UInt8) := (l.filterMap fun x => match x.ev with
  | ⟨.rand, r⟩ => r
  | _ => none).getLast?

/-- Whether the data of some heartbeat have been stored, which `heartbeat` does after it has sent the first one. -/
def noted (l : List Rec) : Bool := l.any fun x => x.ev.op = .setBeat

end M3.Spec

namespace M3.Conn

open Spec

/-- Executions of a connection that does not share its `HeartbeatInfo`: the data it points to are exchanged by nobody
else. -/
inductive Alone (E : Env) : World → Prop where
  | init : Alone E (init E)
  | step {w w' : World} : Alone E w → Step E w w' → (w'.trace = w.trace → w'.sh.beatRef = w.sh.beatRef) → Alone E w'

theorem Alone.reachable {E : Env} {w : World} (h : Alone E w) : Reachable E w := by
  induction h with
  | init => exact .refl _
  | step _ hs _ ih => exact .tail ih hs

theorem drawn_append_none {l : List Rec} {x : Rec} (h : ∀ r, x.ev ≠ ⟨.rand, some r⟩) : drawn (l ++ [x]) = drawn l := by
  obtain ⟨t, g, o, r⟩ := x
  cases o <;> simp [drawn, List.filterMap_append]
  cases r with
  | none => simp
  | some r => exact absurd rfl (h r)

theorem noted_append {l : List Rec} {x : Rec} : noted (l ++ [x]) = (noted l || decide (x.ev.op = .setBeat)) := by
  simp [noted, List.any_append]

/-- What the pointer of the configuration and the buffer are, in terms of what was done. -/
structure Pointer (E : Env) (w : World) : Prop where
  ref : w.sh.beatRef = if noted w.trace then .buf else .own E.hb.data
  buf : w.sh.beatBuf = (drawn w.trace).getD (List.replicate 128 0)
  past : ∀ l₁ x l₂ b, w.trace = l₁ ++ x :: l₂ → beat? x.ev = some b →
    b = if noted l₁ then (drawn l₁).getD (List.replicate 128 0) else E.hb.data

theorem Pointer.same {E : Env} {w w' : World} (h : Pointer E w) (h1 : w'.trace = w.trace)
    (h2 : w'.sh.beatRef = w.sh.beatRef) (h3 : w'.sh.beatBuf = w.sh.beatBuf) : Pointer E w' :=
  ⟨by rw [h1, h2, h.ref], by rw [h1, h3, h.buf], by rw [h1]; exact h.past⟩

theorem past_add {E : Env} {l : List Rec} {x : Rec}
    (h : ∀ l₁ x l₂ b, l = l₁ ++ x :: l₂ → beat? x.ev = some b →
      b = if noted l₁ then (drawn l₁).getD (List.replicate 128 0) else E.hb.data)
    (hx : ∀ b, beat? x.ev = some b → b = if noted l then (drawn l).getD (List.replicate 128 0) else E.hb.data) :
    ∀ l₁ y l₂ b, l ++ [x] = l₁ ++ y :: l₂ → beat? y.ev = some b →
      b = if noted l₁ then (drawn l₁).getD (List.replicate 128 0) else E.hb.data := by
  intro l₁ y l₂ b hl hb
  rcases List.eq_nil_or_concat l₂ with rfl | ⟨l₃, z, rfl⟩
  · obtain ⟨rfl, he⟩ := List.append_inj' hl rfl
    cases he
    exact hx b hb
  · rw [List.concat_eq_append, ← List.cons_append, ← List.append_assoc] at hl
    obtain ⟨rfl, -⟩ := List.append_inj' hl rfl
    exact h _ _ _ _ rfl hb

theorem Pointer.other {E : Env} {sh sh' : Shared} {ts ts' : List Thread} {l : List Rec} {x : Rec}
    (h : Pointer E ⟨sh, ts, l⟩) (hr : ∀ r, x.ev ≠ ⟨.rand, some r⟩) (hs : x.ev.op ≠ .setBeat) (hb : beat? x.ev = none)
    (h2 : sh'.beatRef = sh.beatRef) (h3 : sh'.beatBuf = sh.beatBuf) : Pointer E ⟨sh', ts', l ++ [x]⟩ :=
  ⟨by simp only [noted_append, hs, decide_false, Bool.or_false, h2]; exact h.ref,
   by simp only [drawn_append_none hr, h3]; exact h.buf, past_add h.past (fun b he => by rw [hb] at he; cases he)⟩

theorem Pointer.step {E : Env} {w w' : World} (h : Pointer E w) (hs : Step E w w')
    (ho : w'.trace = w.trace → w'.sh.beatRef = w.sh.beatRef) : Pointer E w' := by
  cases hs with
  | env _ he => cases he <;> exact h.same rfl (ho rfl) rfl
  | call => exact h.same rfl rfl rfl
  | loop => exact h.same rfl rfl rfl
  | crash => exact h.same rfl rfl rfl
  | run i g hist o k r _ ht hx =>
    clear ho
    obtain ⟨sh, ts, l⟩ := w
    simp only at hx ht ⊢
    cases hx <;>
      first
      | exact h.other (by intro _ e; cases e) (by intro e; cases e) rfl rfl rfl
      | skip
    · refine ⟨?_, ?_, past_add h.past nofun⟩
      · simpa [noted_append] using h.ref
      · simp [drawn, List.filterMap_append]
    · refine ⟨?_, ?_, past_add h.past fun b hb => ?_⟩
      · simpa [noted_append] using h.ref
      · rw [drawn_append_none (by intro _ e; cases e)]
        exact h.buf
      · have hr := h.ref
        have hb' := h.buf
        simp only at hr hb'
        simp only [beat?, Option.some.injEq] at hb
        rw [← hb, hr, hb']
        cases noted l <;> rfl
    · refine ⟨?_, ?_, past_add h.past nofun⟩
      · simp [noted_append]
      · rw [drawn_append_none (by intro _ e; cases e)]
        exact h.buf
  | sync i j gi gj hi' hj' oi oj ki kj ri rj _ hij hti htj hx =>
    clear ho
    obtain ⟨sh, ts, l⟩ := w
    simp only at hx hti htj ⊢
    have e : ∀ a b : Rec, l ++ [a, b] = (l ++ [a]) ++ [b] := fun a b => by simp
    rw [e]
    cases hx <;>
      exact (h.other (ts' := ts) (by intro _ e; cases e) (by intro e; cases e) rfl rfl rfl).other
        (by intro _ e; cases e) (by intro e; cases e) rfl rfl rfl

theorem setBeat_after {E : Env} : WP (Hist fun s o => o = .setBeat → ∃ d, (⟨.rand, some d⟩ : Ev) ∈ s) .beatLoop
    (fun _ _ => True) [] (body E .beatLoop) := by
  wp_code [Hist.ok_eq, Hist.may_eq, Hist.next_eq] <;> simp

/-- Nothing is stored before something was drawn. -/
theorem noted_drawn {E : Env} {w : World} (h : Reachable E w) {l₁ l₂ : List Rec} (hl : w.trace = l₁ ++ l₂)
    (hn : noted l₁ = true) : ∃ d, drawn l₁ = some d := by
  obtain ⟨x, hx, ho⟩ := List.any_eq_true.mp hn
  obtain ⟨a, b, rfl⟩ := List.append_of_mem hx
  have hr := (Role.reach h x (by rw [hl]; simp)).2
  have hof : w.of x.tid = a.filter (·.tid == x.tid) ++ x :: (b ++ l₂).filter (·.tid == x.tid) := by
    rw [World.of, hl, List.append_assoc, List.filter_append, List.cons_append, List.filter_cons_of_pos (by simp)]
  obtain ⟨i, g, o, r⟩ := x
  simp only [decide_eq_true_eq] at ho
  subst ho
  have : g = .beatLoop := by simpa [Role.role] using hr
  subst this
  obtain ⟨pre, hist, he, hP⟩ := Hist.iter h hof setBeat_after
  obtain ⟨d, hd⟩ := hP rfl
  have hm : (⟨i, .beatLoop, .rand, some d⟩ : Rec) ∈ a := by
    have : (⟨i, .beatLoop, .rand, some d⟩ : Rec) ∈ a.filter (·.tid == i) := by
      rw [he]
      exact List.mem_append_right _ (List.mem_map.mpr ⟨_, hd, rfl⟩)
    exact (List.mem_filter.mp this).1
  cases hg : drawn (a ++ ⟨i, .beatLoop, .setBeat, r⟩ :: b) with
  | some d => exact ⟨d, rfl⟩
  | none =>
    rw [drawn, List.getLast?_eq_none_iff, List.filterMap_eq_nil_iff] at hg
    cases hg _ (List.mem_append_left _ hm)

/-- **C77.** With what a Heartbeat Ack is compared, for a connection that does not share its configuration: until the first
heartbeat has been stored (which happens after it was sent), with the data the user put into the configuration; afterwards, with
the random data drawn last, whether or not they have been sent yet. -/
theorem c77_compared {E : Env} {w : World} (h : Alone E w) {l₁ l₂ : List Rec} {x : Rec} {b : List UInt8}
    (hl : w.trace = l₁ ++ x :: l₂) (hb : beat? x.ev = some b) :
    if noted l₁ then drawn l₁ = some b else b = E.hb.data := by
  have : Pointer E w := by
    clear hl
    induction h with
    | init => exact ⟨rfl, rfl, fun l₁ x l₂ b hl => by cases l₁ <;> cases hl⟩
    | step _ hs ho ih => exact ih.step hs ho
  have he := this.past _ _ _ _ hl hb
  split
  · rename_i hn
    obtain ⟨d, hd⟩ := noted_drawn h.reachable hl hn
    rw [if_pos hn, hd] at he
    rw [hd, he]
    rfl
  · rename_i hn
    rwa [if_neg hn] at he

/-- Whether a schedule lets another connection exchange the data. -/
def Choice.foreign : Choice → Bool
  | .otherBeat _ => true
  | _ => false

theorem step_alone {E : Env} {w w' : World} {c : Choice} (h : step (body E) w c = some w') (hc : c.foreign = false)
    (ht : w'.trace = w.trace) : w'.sh.beatRef = w.sh.beatRef := by
  cases c with
  | otherBeat => cases hc
  | run i hint =>
    simp only [step] at h
    split at h
    · cases h
    · split at h
      · split at h
        · cases h; simp at ht
        · cases h
      · cases h
  | sync i j =>
    simp only [step] at h
    split at h
    · cases h
    · split at h
      · cases h
      · split at h
        · split at h
          · cases h; simp at ht
          · cases h
        · cases h
  | _ =>
    simp only [step] at h
    repeat' split at h
    all_goals first | (cases h; rfl) | (cases h; done)

theorem play_alone {E : Env} {w w' : World} {cs : List Choice} (hw : Alone E w) (h : play (body E) w cs = some w')
    (hc : cs.all (fun c => !c.foreign) = true) : Alone E w' := by
  induction cs generalizing w with
  | nil => cases h; exact hw
  | cons c cs ih =>
    simp only [play] at h
    simp only [List.all_cons, Bool.and_eq_true, Bool.not_eq_true'] at hc
    cases hs : step (body E) w c with
    | none => rw [hs] at h; cases h
    | some v => rw [hs] at h; exact ih (.step hw (step_sound hs) (step_alone hs hc.1)) h hc.2

theorem reach_alone {α : Type} {E : Env} {cs : List Choice} {f : World → α} {v : α}
    (h : (play (body' E) (M3.Conn.init E) cs).map f = some v) (hc : cs.all (fun c => !c.foreign) = true) :
    ∃ w, Alone E w ∧ f w = v := by
  cases hp : play (body' E) (M3.Conn.init E) cs with
  | none => rw [hp] at h; cases h
  | some w => rw [hp] at h; exact ⟨w, play_alone .init (body_eq E ▸ hp) hc, Option.some.inj h⟩

/-- Data of a heartbeat. -/
def sevens : Bytes := List.replicate 128 7

/-- The first heartbeat is sent; the acknowledgement is handled before the data of the heartbeat are stored. -/
def early (m : Mode) : List Choice :=
  openingBeatOf m ++ go 3 1 ++ [.loop 3, .run 3 (.rand sevens)] ++ go 3 2 ++ [.deliver (message 1 3 6 [tlv 9 sevens])] ++ go 2 2
    ++ [.loop 2] ++ go 5 3 ++ [.sync 5 2]

/-- The first heartbeat is sent and its data are stored; another connection stores its data; the acknowledgement arrives. -/
def shared (m : Mode) (other : Bytes) : List Choice :=
  openingBeatOf m ++ go 3 1 ++ beat sevens ++ [.otherBeat other, .deliver (message 1 3 6 [tlv 9 sevens])] ++ go 2 2
    ++ [.loop 2] ++ go 5 3 ++ [.sync 5 2]

/-- The last error reported was that a Heartbeat Ack was unexpected. -/
def ackRefused (w : World) : Bool := match (complaints w.trace).getLast? with
  | some (.unexpectedMessage (.heartbeatAck _)) => true
  | _ => false

/-- **C77**, first heartbeat: if the user left the data of the configuration empty, a peer that answers the first heartbeat
correctly can have its answer refused as unexpected, because the data of a heartbeat are stored only after it was sent. -/
theorem c77_race (E : Env) (he : E.hb.enabled = true) (hd : E.hb.data = []) : ∃ w d, Alone E w ∧ w.sh.st = .active ∧
    ((sends w.trace).map Sent.bytes).getLast? = some (message 1 3 3 [tlv 9 d]) ∧
    (receives w.trace).getLast? = some (message 1 3 6 [tlv 9 d]) ∧ ackRefused w = true := by
  have h : (play (body' E) (M3.Conn.init E) (early E.mode)).map
      (fun w => (w.sh.st, ((sends w.trace).map Sent.bytes).getLast?, (receives w.trace).getLast?, ackRefused w)) =
        some (.active, some (message 1 3 3 [tlv 9 sevens]), some (message 1 3 6 [tlv 9 sevens]), true) := by
    obtain ⟨mode, cfg, ⟨en, a, b, c⟩, ms⟩ := E
    simp only at he hd
    subst he hd
    cases mode <;> kernel_rfl
  obtain ⟨w, hw, he⟩ := reach_alone h (by cases E.mode <;> rfl)
  simp only [Prod.mk.injEq] at he
  exact ⟨w, sevens, hw, he⟩

/-- For `c77_race` and `c77_shared`. -/
example : E₁.hb.enabled = true ∧ E₁.hb.data = [] := ⟨rfl, rfl⟩

/-- **C77**, shared configuration: whatever the configuration, if two connections share it (as those accepted by one `Listener`
do), the correct answer to a heartbeat can be refused as unexpected because the other connection has stored its data. -/
theorem c77_shared (E : Env) (he : E.hb.enabled = true) : ∃ w d, Reachable E w ∧ w.sh.st = .active ∧
    ((sends w.trace).map Sent.bytes).getLast? = some (message 1 3 3 [tlv 9 d]) ∧ noted w.trace = true ∧
    (receives w.trace).getLast? = some (message 1 3 6 [tlv 9 d]) ∧ ackRefused w = true := by
  have h : (play (body' E) (M3.Conn.init E) (shared E.mode (List.replicate 128 8))).map
      (fun w => (w.sh.st, ((sends w.trace).map Sent.bytes).getLast?, noted w.trace, (receives w.trace).getLast?, ackRefused w)) =
        some (.active, some (message 1 3 3 [tlv 9 sevens]), true, some (message 1 3 6 [tlv 9 sevens]), true) := by
    obtain ⟨mode, cfg, ⟨en, a, b, c⟩, ms⟩ := E
    simp only at he
    subst he
    cases mode <;> kernel_rfl
  obtain ⟨w, hw, he⟩ := reach_of h
  simp only [Prod.mk.injEq] at he
  exact ⟨w, sevens, hw, he⟩

/-- A case of `c77_compared`: the data of the heartbeat that was sent. -/
example : ∃ w, Alone E₁ w ∧ (w.trace.filterMap fun x => beat? x.ev) = [sevens] ∧ noted w.trace = true := by
  have h : (play (body' E₁) (M3.Conn.init E₁) (openingBeatOf .client ++ go 3 1 ++ beat sevens ++
      [.deliver (message 1 3 6 [tlv 9 sevens])] ++ go 2 2 ++ [.loop 2] ++ go 5 3)).map
      (fun w => (w.trace.filterMap fun x => beat? x.ev, noted w.trace)) = some ([sevens], true) := by kernel_rfl
  obtain ⟨w, hw, he⟩ := reach_alone h (by rfl)
  simp only [Prod.mk.injEq] at he
  exact ⟨w, hw, he⟩

end M3.Conn
