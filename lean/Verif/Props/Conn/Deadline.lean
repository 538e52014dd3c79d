import Verif.Props.Conn.Remains
import Verif.Props.Conn.Retired
import Verif.Props.Conn.Ended

/- What it means to the user that a read of the association fails: C119. The peer may be gone, or a deadline may have passed: `SetReadDeadline` and `SetDeadline`
(`conn.go:223-231`) hand it to the association, which is read by the monitor only. Whether the SCTP package honours deadlines is not modelled; a read can fail at
any time. -/

set_option autoImplicit false
set_option linter.unusedSimpArgs false

namespace M3.Spec

open M3.Conn

/-- A read of the association failed: the peer is gone, or a deadline has passed. -/
def readFails : Ev → Bool
  | ⟨.read _, none⟩ => true
  | _ => false

/-- What the goroutine that finds the association unreadable can still do: close the connection. -/
def shutting : Op → Bool
  | .lock | .getSt | .closeEst | .closeAck | .closeData | .sctpClose | .unlock | .broadcast => true
  | .putSt s => s == .down
  | _ => false

end M3.Spec

namespace M3.Conn

open Spec

namespace Deadline

/-- Has a read failed? -/
def next (s : Bool) : (o : Op) → Resp o → Bool
  | .read _, none => true
  | _, _ => s

def ok (s : Bool) (o : Op) : Prop := s = true → shutting o = true

def D : Disc Bool where
  start _ s := s = false
  born _ := false
  ok _ := ok
  may _ _ _ _ := True
  next _ := next

theorem D_ok {g s o} : D.ok g s o = ok s o := rfl
theorem D_may {g s o r} : D.may g s o r = True := rfl
theorem D_next {g s o r} : D.next g s o r = next s o r := rfl
theorem D_post_none {s} : D.post s none = True := rfl
theorem D_post_some {s g} : D.post s (some g) = (s = false) := rfl

theorem good (E : Env) : D.Good E where
  main := rfl
  init := rfl
  monitor := rfl
  api _ := rfl
  spawn g s g' h := rfl
  body g s hs := by
    obtain rfl := hs
    cases g with
    | monitorLoop =>
      obtain ⟨mode, cfg, hb, ms⟩ := E
      cases mode <;> wp_code [D_ok, D_may, D_next, ok, next, D_post_none, D_post_some, shutting]
        <;> (try (intro r; cases r)) <;> simp +contextual [next, shutting]
    | packet raw =>
      rw [body, packet_eq]
      cases hp : M3UA.parse raw with
      | ok m => cases m <;> wp_code [D_ok, D_may, D_next, ok, next, D_post_none, D_post_some] <;> simp
      | _ => wp_code [D_post_none, D_post_some] <;> simp
    | api c =>
      cases c <;> wp_code [D_ok, D_may, D_next, ok, next, D_post_none, D_post_some] <;> (try simp)
    | _ => wp_code [D_ok, D_may, D_next, ok, next, D_post_none, D_post_some] <;> simp_all

theorem next_true {o : Op} {r : Resp o} : next true o r = true := by
  unfold next; split <;> rfl

theorem next_fails {s : Bool} {o : Op} {r : Resp o} (h : readFails ⟨o, r⟩ = true) : next s o r = true := by
  unfold readFails at h
  split at h
  · rename_i h'; cases h'; rfl
  · cases h

/-- After a failed read the goroutine only closes the connection. -/
def I (tr : List Rec) (ss : List Bool) : Prop :=
  ∀ l₁ x l₂, tr = l₁ ++ x :: l₂ → readFails x.ev = true →
    ss[x.tid]? = some true ∧ ∀ y ∈ l₂, y.tid = x.tid → shutting y.ev.op = true

theorem I.step {tr : List Rec} {ss : List Bool} (h : I tr ss) {i : Nat} {g : Gor} {s : Bool} {o : Op} (r : Resp o) (hs : ss[i]? = some s)
    (hok : ok s o) (l : List Bool) : I (tr ++ [⟨i, g, o, r⟩]) (ss.set i (next s o r) ++ l) := by
  intro l₁ x l₂ hl hx
  have hlt := (List.getElem?_eq_some_iff.mp hs).1
  rcases List.eq_nil_or_concat l₂ with rfl | ⟨m, y, rfl⟩
  · obtain ⟨-, h2⟩ := List.append_inj' hl rfl
    cases h2
    refine ⟨?_, by simp⟩
    rw [List.getElem?_append_left (by simpa using hlt), List.getElem?_set_self hlt, next_fails hx]
  · rw [List.concat_eq_append, ← List.cons_append, ← List.append_assoc] at hl
    obtain ⟨h1, h2⟩ := List.append_inj' hl rfl
    cases h2
    obtain ⟨h3, h4⟩ := h l₁ x m h1 hx
    have hlx := (List.getElem?_eq_some_iff.mp h3).1
    rw [List.getElem?_append_left (by simpa using hlx), List.concat_eq_append]
    by_cases hi : i = x.tid
    · subst hi
      rw [h3] at hs; cases hs
      refine ⟨by rw [List.getElem?_set_self hlt, next_true], fun y hy hyx => ?_⟩
      rcases List.mem_append.mp hy with hy | hy
      · exact h4 y hy hyx
      · cases List.mem_singleton.mp hy
        exact hok rfl
    · refine ⟨by rw [List.getElem?_set_ne hi, h3], fun y hy hyx => ?_⟩
      rcases List.mem_append.mp hy with hy | hy
      · exact h4 y hy hyx
      · cases List.mem_singleton.mp hy
        exact (hi hyx).elim

theorem pres : Pres D (fun _ tr ss => I tr ss) where
  env _ _ _ _ h _ := h
  call sh tr ss c h _ := fun l₁ x l₂ hl hx => by
    obtain ⟨h1, h2⟩ := h l₁ x l₂ hl hx
    exact ⟨by rw [List.getElem?_append_left (List.getElem?_eq_some_iff.mp h1).1, h1], h2⟩
  run sh sh' tr ss i g s o r h hs hok _ := ⟨trivial, h.step r hs hok _⟩
  sync sh sh' tr ss i j gi gj si sj oi oj ri rj h hij hsi hsj hoi hoj _ := by
    refine ⟨trivial, trivial, ?_⟩
    have h1 := h.step (g := gi) ri hsi hoi []
    rw [List.append_nil] at h1
    have h2 := h1.step (i := j) (g := gj) rj (by rw [List.getElem?_set_ne hij, hsj]) hoj []
    rw [List.append_nil, List.append_assoc] at h2
    exact h2
  crash _ _ _ _ _ _ _ h _ _ _ := h

theorem reach {E : Env} {w : World} (h : Reachable E w) : ∃ ss, D.Linked w ss ∧ I w.trace ss :=
  Disc.reach (good E) pres (fun l₁ x l₂ hl => by cases l₁ <;> cases hl) h

theorem read_tid {E : Env} {w : World} (h : Reachable E w) {x : Rec} (hx : x ∈ w.trace) {n : Nat} (ho : x.ev.op = .read n) : x.tid = 2 := by
  obtain ⟨h1, h2⟩ := Role.reach h x hx
  rw [ho] at h2
  have hg : x.gor = .monitorLoop := by
    revert h2
    cases x.gor <;> simp [Role.role]
  rw [hg] at h1
  exact h1.2.2.mp rfl

theorem fails_op {e : Ev} (h : readFails e = true) : ∃ n, e.op = .read n := by
  unfold readFails at h
  split at h
  · exact ⟨_, rfl⟩
  · cases h

end Deadline

/-- C119: after a read of the association has failed, for whatever reason, no datagram is received any more, nobody reads again, and the
goroutine that reads does nothing but close the connection. -/
theorem c119_closes {E : Env} {w : World} (h : Reachable E w) {l₁ l₂ : List Rec} {x : Rec} (hl : w.trace = l₁ ++ x :: l₂) (hx : readFails x.ev = true) :
    receives l₂ = [] ∧ (∀ y ∈ l₂, ∀ n, y.ev.op ≠ .read n) ∧ ∀ y ∈ l₂, y.tid = x.tid → shutting y.ev.op = true := by
  obtain ⟨ss, -, hi⟩ := Deadline.reach h
  obtain ⟨-, h2⟩ := hi l₁ x l₂ hl hx
  obtain ⟨n, hn⟩ := Deadline.fails_op hx
  have hx2 := Deadline.read_tid h (x := x) (by rw [hl]; simp) hn
  have hr : ∀ y ∈ l₂, ∀ n, y.ev.op ≠ .read n := fun y hy m hm => by
    have := h2 y hy ((Deadline.read_tid h (by rw [hl]; simp [hy]) hm).trans hx2.symm)
    rw [hm] at this; cases this
  refine ⟨?_, hr, h2⟩
  rw [receives, List.filterMap_eq_nil_iff]
  intro y hy
  have := hr y hy
  obtain ⟨_, _, o, r⟩ := y
  cases o <;> first | rfl | exact (this _ rfl).elim

/-- C119: when nothing happens by itself any more after such a failure, the connection is closed: the state is AspDown, the association is closed and the monitor has ended. -/
theorem c119_over {E : Env} {w : World} (h : Reachable E w) (hq : Halted E w) {x : Rec} (hx : x ∈ w.trace) (hf : readFails x.ev = true) :
    Over w ∧ w.sh.st = .down := by
  suffices ho : Over w from ⟨ho, (c90_down h ho.ended).1⟩
  obtain ⟨l₁, l₂, hl⟩ := List.append_of_mem hx
  obtain ⟨ss, hlk, hi⟩ := Deadline.reach h
  obtain ⟨h1, -⟩ := hi l₁ x l₂ hl hf
  obtain ⟨n, hn⟩ := Deadline.fails_op hf
  rw [Deadline.read_tid h hx hn] at h1
  have key : ∀ o, w.at o → (∀ g, Role.role o g = true → Role.cl g = .monitor) → shutting o = true := by
    rintro o ⟨i, ⟨g, e, p⟩, k, ht, rfl⟩ hg
    obtain ⟨h3, h4⟩ := Role.pending h ht
    obtain rfl := h3.2.2.mp (hg g h4)
    exact (wp_op.mp (hlk.2 2 _ true ht h1)).1 rfl
  rcases c89_rest h hq with h2 | h2 | h2 | h2
  · cases key _ h2.reads (fun g hg => by cases g <;> simp_all [Role.role, Role.cl])
  · cases key _ h2.waits (fun g hg => by cases g <;> simp_all [Role.role, Role.cl])
  · cases key _ h2.sends (fun g hg => by cases g <;> simp_all [Role.role, Role.cl])
  · exact h2

/-- C119: a call of `Read` or `ReadPD` never reports a deadline: it returns a payload, or `ErrNotEstablished`. -/
theorem c119_reads {E : Env} {w : World} (h : Reachable E w) {i : Nat} {t : Thread} (ht : w.threads[i]? = some t) {c : Api} (hc : t.gor = .api c)
    (hr : c = .readPD ∨ ∃ n, c = .read n) {res : ApiRes} (hm : res ∈ returns (w.of i)) :
    (∃ n b, res = .data n b) ∨ (∃ pd, res = .pd pd) ∨ res = .fail .notEstablished := by
  have key : ∀ f, (∀ pd, (∃ n b, f pd = .data n b) ∨ ∃ q, f pd = .pd q) → ReadOutcome f (observes (w.of i)) (takes (w.of i)) res →
      (∃ n b, res = .data n b) ∨ (∃ pd, res = .pd pd) ∨ res = .fail .notEstablished := by
    rintro f hf (⟨st, -, -, -, rfl⟩ | ⟨-, x, -, rfl⟩)
    · exact .inr (.inr rfl)
    · cases x with
      | none => exact .inr (.inr rfl)
      | some pd => exact (hf pd).imp id .inl
  rcases hr with rfl | ⟨n, rfl⟩
  · exact key _ (fun pd => .inr ⟨pd, rfl⟩) (c42_readPD h ht hc hm).1
  · exact key _ (fun pd => .inl ⟨_, _, rfl⟩) (c42_read h ht hc hm).1

/-- C119: so from then on every call of `Read`, `ReadPD` and the `Write` methods returns `ErrNotEstablished` if it returns, although the user may have set a new deadline. -/
theorem c119_after {E : Env} {w₁ w : World} (h : Reachable E w₁) (hq : Halted E w₁) (hd : decided w₁.trace) {x : Rec} (hx : x ∈ w₁.trace)
    (hf : readFails x.ev = true) (h2 : Steps E w₁ w) {i : Nat} {t : Thread} (ht : w.threads[i]? = some t) {c : Api} (hc : t.gor = .api c)
    (hp : payloadCall c = true) (hi : w₁.threads.length ≤ i) :
    sends (w.of i) = [] ∧ takes (w.of i) = [] ∧ ∀ r ∈ returns (w.of i), r = .fail .notEstablished :=
  c102_calls h hd (by rw [(c119_over h hq hx hf).2]; simp) h2 ht hc hp hi

/-- C119: this happens whatever the configuration and the mode. A connection is open and active, its user waits in `Read`, nobody has called `Close`, the
context is not cancelled, everything could be sent, and no datagram was lost; a read of the association fails. The connection is closed, and `Read` returns
`ErrNotEstablished`. -/
theorem c119_occurs (E : Env) : ∃ w, Reachable E w ∧ Halted E w ∧ decided w.trace ∧ (∃ x ∈ w.trace, readFails x.ev = true) ∧ Over w ∧
    (∀ c ∈ reasons w.trace, c = .read) ∧ w.sh.ctxDone = false ∧ calls w = [.read 10] ∧ returns w.trace = [.fail .notEstablished] := by
  have h : (play (body' E) (init E) (opening E.mode ++ [.call (.read 10)] ++ go 5 1 ++ [.run 2 .fail] ++ go 2 9 ++ go 5 2 ++ go 3 1)).map
      (fun w => (Halt.haltedB w, monEnded w, w.sh.sctpClosed, w.sh.locked, w.trace.any (fun x => x.ev.op == .estSelect), w.trace.any (fun x => readFails x.ev),
        (reasons w.trace).all (· == .read), w.sh.ctxDone, calls w, returns w.trace)) =
        some (true, true, true, false, true, true, true, false, [.read 10], [.fail .notEstablished]) := by
    obtain ⟨mode, cfg, hb, ms⟩ := E
    cases mode <;> kernel_rfl
  obtain ⟨w, hw, he⟩ := reach_of h
  simp only [Prod.mk.injEq] at he
  obtain ⟨h1, h2, h3, h4, h5, h6, h7, h8, h9, h10⟩ := he
  refine ⟨w, hw, Halt.halted_of h1, ?_, List.any_eq_true.mp h6, ?_, fun c hc => by simpa using List.all_eq_true.mp h7 c hc, h8, h9, h10⟩
  · obtain ⟨x, hx, ho⟩ := List.any_eq_true.mp h5
    exact ⟨x, hx, by simpa using ho⟩
  · unfold monEnded at h2
    split at h2
    · rename_i g2 e2 ht2
      exact ⟨⟨g2, e2, ht2⟩, h3, h4⟩
    · cases h2

/-- For `c119_closes`: the peer sends another message after the failure, before the monitor has closed the association. It is never received. -/
example : ∃ w, Reachable E₀ w ∧ Halted E₀ w ∧ (∃ x ∈ w.trace, readFails x.ev = true) ∧ receives w.trace = [ackMsg] ∧ w.sh.inbox = [ackMsg] ∧
    ((w.of 2).reverse.take 10).map (fun x => x.ev.op) = [.broadcast, .unlock, .sctpClose, .putSt .down, .closeData, .closeAck, .closeEst, .getSt, .lock, .read 1500] ∧ w.sh.st = .down := by
  have h : (play (body' E₀) (init E₀) (opening .client ++ [.run 2 .fail] ++ go 2 2 ++ [.deliver ackMsg] ++ go 2 7 ++ go 3 1)).map
      (fun w => (Halt.haltedB w, w.trace.any (fun x => readFails x.ev), receives w.trace, w.sh.inbox,
        ((w.of 2).reverse.take 10).map (fun x => x.ev.op), w.sh.st)) =
        some (true, true, [ackMsg], [ackMsg], [.broadcast, .unlock, .sctpClose, .putSt .down, .closeData, .closeAck, .closeEst, .getSt, .lock, .read 1500], .down) := by kernel_rfl
  obtain ⟨w, hw, he⟩ := reach_of h
  simp only [Prod.mk.injEq] at he
  exact ⟨w, hw, Halt.halted_of he.1, List.any_eq_true.mp he.2.1, he.2.2.1, he.2.2.2.1, he.2.2.2.2.1, he.2.2.2.2.2⟩

end M3.Conn
