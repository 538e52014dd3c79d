import Verif.Props.Conn.Order
import Verif.Props.Conn.Halt

/- A user who does not read: C120. -/

set_option autoImplicit false
set_option linter.unusedSimpArgs false

namespace M3.Spec

open M3.Conn

/-- Goroutine `i` has this payload for the user and waits for room in the queue. -/
def Holds (w : World) (i : Nat) (pd : ProtocolDataPayload) : Prop :=
  ∃ m e k, w.threads[i]? = some ⟨.data m, e, .op (.sendData pd) k⟩

end M3.Spec

namespace M3.Conn

open Spec

namespace Backlog

open Order

theorem exec_queue {sh sh' : Shared} {o : Op} {r : Resp o} (hx : Exec sh o r sh') (h : sh.dataQ.length ≤ dataCap) : sh'.dataQ.length ≤ dataCap := by
  cases hx <;> first
    | exact h
    | (rename_i _ hl; simp only [List.length_append, List.length_singleton]; omega)
    | (rename_i hq; rw [hq] at h; simp only [List.length_cons] at h; simp only; omega)

theorem exec_ctx {sh sh' : Shared} {o : Op} {r : Resp o} (h : Exec sh o r sh') : sh'.ctxDone = sh.ctxDone := by
  cases h <;> rfl

theorem ctx_stays {E : Env} {w w' : World} (h : Steps E w w') (hc : w.sh.ctxDone = true) : w'.sh.ctxDone = true := by
  induction h with
  | refl => exact hc
  | tail _ hs ih =>
    cases hs with
    | env _ he => cases he <;> first | exact ih | rfl
    | run i g hist o k r _ ht hx => exact (exec_ctx hx).trans ih
    | sync i j gi gj hi hj oi oj ki kj ri rj _ hij hti htj hx => cases hx <;> exact ih
    | _ => exact ih

/-- A fresh goroutine for a payload looks at the state. -/
theorem look {E : Env} {w : World} (hc : w.sh.crashed = false) (hu : w.sh.locked = false) (hs : w.sh.st = .active) {i : Nat} {m : Msg.Data} {p : Param}
    {pd : ProtocolDataPayload} (hm : m.protocolData = some p) (hp : p.protocolData = .ok pd) (ht : w.threads[i]? = some (.fresh E (.data m))) :
    ∃ w' e, Steps E w w' ∧ w'.sh = w.sh ∧ w'.threads[i]? = some ⟨.data m, e, .op (.sendData pd) fun _ => .ret none⟩ ∧
      (∀ j, j ≠ i → w'.threads[j]? = w.threads[j]?) ∧ w'.threads.length = w.threads.length ∧ receives w'.trace = receives w.trace ∧
      returns w'.trace = returns w.trace := by
  obtain ⟨D, d0, d1⟩ := data_code E hm hp
  rw [Thread.fresh, d0] at ht
  obtain ⟨w1, s1, sh1, a1, b1, l1, t1⟩ := move (E := E) hc ht (.state hu) rfl
  rw [hs, d1] at a1
  exact ⟨w1, _, .tail (.refl _) s1, sh1, a1, b1, l1, by rw [t1]; simp [receives, received?], by rw [t1]; simp [returns, returned?]⟩

/-- What does not change while payloads are queued. -/
structure Kept (w w' : World) : Prop where
  sh : ∃ q, w'.sh = { w.sh with dataQ := q }
  monitor : w'.threads[2]? = w.threads[2]?
  receives : receives w'.trace = receives w.trace
  returns : returns w'.trace = returns w.trace

theorem Kept.trans {a b c : World} (h : Kept a b) (h' : Kept b c) : Kept a c := by
  obtain ⟨q, hq⟩ := h.sh
  obtain ⟨q', hq'⟩ := h'.sh
  exact ⟨⟨q', by rw [hq', hq]⟩, h'.monitor.trans h.monitor, h'.receives.trans h.receives, h'.returns.trans h.returns⟩

/-- All payloads are queued as far as there is room; the rest is held. -/
theorem fill {E : Env} (l : List (Nat × ProtocolDataPayload)) : ∀ {w : World}, w.sh.crashed = false → w.sh.locked = false → w.sh.st = .active →
    w.sh.dataClosed = false → w.sh.dataQ.length ≤ dataCap → Pending E w l →
    ∃ w', Steps E w w' ∧ Kept w w' ∧ w'.sh.dataQ = w.sh.dataQ ++ (l.map (·.2)).take (dataCap - w.sh.dataQ.length) ∧
      (∀ j, j ∉ l.map (·.1) → w'.threads[j]? = w.threads[j]?) ∧
      ∀ x ∈ l.drop (dataCap - w.sh.dataQ.length), Holds w' x.1 x.2 := by
  induction l with
  | nil => exact fun {w} _ _ _ _ _ _ => ⟨w, .refl _, ⟨⟨_, rfl⟩, rfl, rfl, rfl⟩, by simp, fun _ _ => rfl, by simp⟩
  | cons x l ih =>
    intro w hc hu hs hd hq hp
    obtain ⟨hn, m, p, hm, hpd, hx⟩ := hp.2 x List.mem_cons_self
    have hnd := List.nodup_cons.mp hp.1
    obtain ⟨w1, e1, s1, sh1, a1, b1, l1, r1, u1⟩ := look hc hu hs hm hpd hx
    have pend {w2 : World} (hj : ∀ j, j ≠ x.1 → w2.threads[j]? = w.threads[j]?) : Pending E w2 l := by
      refine ⟨hnd.2, fun y hy => ?_⟩
      obtain ⟨hy2, m', p', q1, q2, q3⟩ := hp.2 y (List.mem_cons_of_mem _ hy)
      exact ⟨hy2, m', p', q1, q2, by rw [hj _ fun e => hnd.1 (List.mem_map.mpr ⟨y, hy, e⟩)]; exact q3⟩
    have k1 : Kept w w1 := ⟨⟨w.sh.dataQ, by rw [sh1]⟩, b1 2 (Ne.symm hn), r1, u1⟩
    by_cases hlt : w.sh.dataQ.length < dataCap
    · obtain ⟨w2, s2, sh2, a2, b2, l2, t2⟩ := move (E := E) (by rw [sh1]; exact hc) a1
        (.sendData (by rw [sh1]; exact hd) (by rw [sh1]; exact hlt)) rfl
      rw [sh1] at sh2
      have k2 : Kept w1 w2 := ⟨⟨_, by rw [sh2, sh1]⟩, b2 2 (Ne.symm hn), by rw [t2]; simp [receives, received?], by rw [t2]; simp [returns, returned?]⟩
      have b : ∀ j, j ≠ x.1 → w2.threads[j]? = w.threads[j]? := fun j hj => by rw [b2 j hj, b1 j hj]
      obtain ⟨w', s', k', q', b', h'⟩ := ih (w := w2) (by rw [sh2]; exact hc) (by rw [sh2]; exact hu) (by rw [sh2]; exact hs) (by rw [sh2]; exact hd)
        (by rw [sh2]; simp only [List.length_append, List.length_singleton]; omega) (pend b)
      have e : dataCap - w.sh.dataQ.length = (dataCap - w2.sh.dataQ.length) + 1 := by
        rw [sh2]; simp only [List.length_append, List.length_singleton]; omega
      refine ⟨w', Steps.trans (s1.tail s2) s', (k1.trans k2).trans k', ?_, fun j hj => ?_, ?_⟩
      · rw [q', e, List.map_cons, List.take_succ_cons, sh2, List.append_assoc, List.singleton_append]
      · rw [List.map_cons, List.mem_cons, not_or] at hj
        rw [b' j hj.2, b j hj.1]
      · rw [e, List.drop_succ_cons]
        exact h'
    · obtain ⟨w', s', k', q', b', h'⟩ := ih (w := w1) (by rw [sh1]; exact hc) (by rw [sh1]; exact hu) (by rw [sh1]; exact hs) (by rw [sh1]; exact hd)
        (by rw [sh1]; exact hq) (pend b1)
      have e : dataCap - w.sh.dataQ.length = 0 := by omega
      rw [sh1, e] at q' h'
      refine ⟨w', Steps.trans s1 s', k1.trans k', by rw [q', e]; simp, fun j hj => ?_, ?_⟩
      · rw [List.map_cons, List.mem_cons, not_or] at hj
        rw [b' j hj.2, b1 j hj.1]
      · rw [e, List.drop_zero]
        intro y hy
        rcases List.mem_cons.mp hy with rfl | hy
        · exact ⟨m, e1, _, by rw [b' _ hnd.1]; exact a1⟩
        · exact h' y (by simpa using hy)

/-- Many payloads that nobody reads. -/
theorem pile (E : Env) (ds : List (Bytes × ProtocolDataPayload)) (hd : ∀ d ∈ ds, carries d.1 d.2 ∧ d.1.length ≤ 1500) :
    ∃ w, Reachable E w ∧ ∃ sh, Quiet sh ∧ w.sh = { sh with dataQ := (ds.map (·.2)).take 65535 } ∧
      (∃ h, w.threads[2]? = some ⟨.monitorLoop, h, .op (.read 1500) taken⟩) ∧ receives w.trace = ackMsg :: ds.map (·.1) ∧ returns w.trace = [] ∧
      ∃ is : List Nat, is.Nodup ∧ is.length = ds.length - 65535 ∧ ∀ x ∈ is.zip ((ds.map (·.2)).drop 65535), Holds w x.1 x.2 := by
  obtain ⟨w, hw, h, hr, hu⟩ := opened E
  obtain ⟨w1, l, s1, h1, p1, e1, r1, u1⟩ := collect (E := E) ds (l := []) h ⟨by simp, fun x hx => absurd hx List.not_mem_nil⟩ hd
  rw [List.nil_append] at p1
  have hq := h1.quiet
  obtain ⟨w2, s2, k2, q2, -, h2⟩ := fill (E := E) l hq.alive hq.unlocked hq.st hq.data (by rw [hq.queue]; exact Nat.zero_le _) p1
  rw [hq.queue, List.nil_append, List.length_nil, Nat.sub_zero, e1] at q2
  rw [hq.queue, List.length_nil, Nat.sub_zero] at h2
  obtain ⟨q, hsh⟩ := k2.sh
  obtain ⟨hist, hm⟩ := h1.monitor
  rw [← k2.monitor] at hm
  refine ⟨w2, Steps.trans (Steps.trans hw s1) s2, w1.sh, hq, ?_, ⟨hist, hm⟩, by rw [k2.receives, r1, hr]; rfl, by rw [k2.returns, u1, hu],
    (l.drop dataCap).map (·.1), ?_, ?_, ?_⟩
  · rw [hsh] at q2
    rw [hsh]
    exact congrArg (fun q => ({ w1.sh with dataQ := q } : Shared)) (show q = _ from q2)
  · rw [List.map_drop]
    exact p1.1.sublist (List.drop_sublist _ _)
  · have := congrArg List.length e1
    simp only [List.length_map] at this
    rw [List.length_map, List.length_drop, this]
    rfl
  · have e : (ds.map (·.2)).drop 65535 = (l.drop dataCap).map (·.2) := by rw [← e1, List.map_drop]; rfl
    rw [e]
    generalize l.drop dataCap = l' at h2
    intro x hx
    rw [List.zip_map'] at hx
    obtain ⟨y, hy, rfl⟩ := List.mem_map.mp hx
    exact h2 y hy

end Backlog

/-- C120: at most 65535 payloads are queued. -/
theorem c120_bound {E : Env} {w : World} (h : Reachable E w) : w.sh.dataQ.length ≤ 65535 := by
  rw [Reachable] at h
  have hi : (M3.Conn.init E).sh.dataQ.length ≤ dataCap := Nat.zero_le _
  generalize M3.Conn.init E = w' at h hi
  show _ ≤ dataCap
  induction h with
  | refl => exact hi
  | tail _ hs ih =>
    cases hs with
    | env _ he => cases he <;> exact ih
    | call c => exact ih
    | loop => exact ih
    | crash => exact ih
    | run i g hist o k r _ ht hx => exact Backlog.exec_queue hx ih
    | sync i j gi gj hi hj oi oj ki kj ri rj _ hij hti htj hx => cases hx <;> exact ih

/-- C120: when the queue is full, a goroutine that has a payload for the user waits as long as nobody takes a payload out of it and the context is not
done, whatever else happens, and the queue does not change. -/
theorem c120_waits {E : Env} {w w' : World} (hf : w.sh.dataQ.length = 65535) {i : Nat} {pd : ProtocolDataPayload} (hw : Holds w i pd) (hs : Steps E w w')
    (hn : ∀ l, w'.trace = w.trace ++ l → takes l = []) (hx : w'.sh.ctxDone = false) : Holds w' i pd ∧ w'.sh.dataQ = w.sh.dataQ := by
  obtain ⟨m, e, k, ht⟩ := hw
  suffices h : w'.threads[i]? = some ⟨.data m, e, .op (.sendData pd) k⟩ ∧ w'.sh.dataQ = w.sh.dataQ from ⟨⟨m, e, k, h.1⟩, h.2⟩
  induction hs with
  | refl => exact ⟨ht, rfl⟩
  | @tail b c hs hst ih =>
    obtain ⟨l₁, hl₁⟩ := hs.trace
    obtain ⟨l₂, hl₂⟩ := hst.trace
    have hall := hn (l₁ ++ l₂) (by rw [hl₂, hl₁, List.append_assoc])
    rw [takes, List.filterMap_append, List.append_eq_nil_iff] at hall
    have ih := fun hc => ih (fun l hl => by
      rw [hl₁] at hl
      rw [← List.append_cancel_left hl]
      exact hall.1) hc
    cases hst with
    | env hc he => cases he <;> first | exact ih hx | cases hx
    | call c hc hh =>
      obtain ⟨h1, h2⟩ := ih hx
      exact ⟨by rw [List.getElem?_append_left (List.getElem?_eq_some_iff.mp h1).1]; exact h1, h2⟩
    | loop j g g' h hc hj =>
      obtain ⟨h1, h2⟩ := ih hx
      refine ⟨?_, h2⟩
      have hne : j ≠ i := by rintro rfl; rw [h1] at hj; cases hj
      simp only
      rw [List.getElem?_set_ne hne, h1]
    | crash j g h o k' hc hj hcr => exact ih hx
    | run j g h o k' r hc hj hex =>
      obtain ⟨h1, h2⟩ := ih (by rw [← Backlog.exec_ctx hex]; exact hx)
      have hl : i < b.threads.length := (List.getElem?_eq_some_iff.mp h1).1
      have hfull : b.sh.dataQ.length = dataCap := by rw [h2]; exact hf
      have hctx : b.sh.ctxDone = false := by rw [← Backlog.exec_ctx hex]; exact hx
      have hne : j ≠ i := by
        rintro rfl
        rw [h1] at hj
        cases hj
        cases hex with
        | sendData _ hlt => omega
        | sendDataCtx hd => rw [hctx] at hd; cases hd
      refine ⟨?_, ?_⟩
      · simp only
        rw [List.getElem?_append_left (by simpa using hl), List.getElem?_set_ne hne, h1]
      · have htk : takes [⟨j, g, o, r⟩] = [] := by
          have := List.append_cancel_left (hl₂ : b.trace ++ [⟨j, g, o, r⟩] = b.trace ++ l₂)
          rw [this]; exact hall.2
        cases hex <;> first
          | exact h2
          | (omega)
          | (simp [takes, took?] at htk)
    | sync j j' gi gj hi hj' oi oj ki kj ri rj hc hij hti htj hsy =>
      have hctx : b.sh.ctxDone = false := by cases hsy <;> exact hx
      obtain ⟨h1, h2⟩ := ih hctx
      have hne : j ≠ i := by rintro rfl; rw [h1] at hti; cases hti; cases hsy
      have hne' : j' ≠ i := by rintro rfl; rw [h1] at htj; cases htj; cases hsy
      refine ⟨?_, by cases hsy <;> exact h2⟩
      simp only
      rw [List.getElem?_set_ne hne', List.getElem?_set_ne hne, h1]

/-- C120: there is no back-pressure and no limit: whatever the configuration and the mode, however many DATA messages arrive while the user does not read, all are
received; the first 65535 payloads are queued, for each of the others a goroutine waits, and the connection works and waits for more. -/
theorem c120_pile (E : Env) (ds : List (Bytes × ProtocolDataPayload)) (hd : ∀ d ∈ ds, carries d.1 d.2 ∧ d.1.length ≤ 1500) :
    ∃ w, Reachable E w ∧ Listening w ∧ w.sh.st = .active ∧ w.sh.ctxDone = false ∧ receives w.trace = ackMsg :: ds.map (·.1) ∧ returns w.trace = [] ∧
      w.sh.dataQ = (ds.map (·.2)).take 65535 ∧
      ∃ is : List Nat, is.Nodup ∧ is.length = ds.length - 65535 ∧ ∀ x ∈ is.zip ((ds.map (·.2)).drop 65535), Holds w x.1 x.2 := by
  obtain ⟨w, hw, sh, hq, hsh, ⟨hist, hm⟩, hr, hu, h⟩ := Backlog.pile E ds hd
  have hst : w.sh.dataQ = (ds.map (·.2)).take 65535 := by rw [hsh]
  exact ⟨w, hw, ⟨⟨2, _, _, hm, rfl⟩, by rw [hsh]; exact hq.inbox, by rw [hsh]; exact hq.assoc, by rw [hsh]; exact hq.unlocked⟩,
    by rw [hsh]; exact hq.st, by rw [hsh]; exact hq.ctx, hr, hu, hst, h⟩

/-- C120: so the number of goroutines that wait has no bound, and a peer determines it. -/
theorem c120_unbounded (E : Env) (n : Nat) : ∃ w, Reachable E w ∧ Listening w ∧ w.sh.st = .active ∧ returns w.trace = [] ∧ w.sh.dataQ.length = 65535 ∧
    ∃ is : List Nat, is.Nodup ∧ is.length = n ∧ ∀ i ∈ is, Holds w i ⟨0, 0, 0, 0, 0, 0, [7]⟩ := by
  have hd : carries (dataMsg₁ 7) ⟨0, 0, 0, 0, 0, 0, [7]⟩ ∧ (dataMsg₁ 7).length ≤ 1500 := by decide +kernel
  obtain ⟨w, h1, h2, h3, -, -, h4, h5, is, h6, h7, h8⟩ := c120_pile E (List.replicate (65535 + n) (dataMsg₁ 7, ⟨0, 0, 0, 0, 0, 0, [7]⟩))
    (fun d hm => List.eq_of_mem_replicate hm ▸ hd)
  rw [List.length_replicate, Nat.add_sub_cancel_left] at h7
  rw [List.map_replicate, List.drop_replicate, Nat.add_sub_cancel_left] at h8
  refine ⟨w, h1, h2, h3, h4, ?_, is, h6, h7, fun i hi => ?_⟩
  · rw [h5, List.length_take, List.length_map, List.length_replicate]
    omega
  · obtain ⟨j, hj, rfl⟩ := List.mem_iff_getElem.mp hi
    refine h8 (is[j], _) (List.mem_iff_getElem.mpr ⟨j, ?_, ?_⟩)
    · rw [List.length_zip, List.length_replicate]; omega
    · rw [List.getElem_zip, List.getElem_replicate]

/-- C120: once `Close` has closed the queue, a goroutine that still has a payload can only panic, unless the context is done: it stays where it is until then, and
the process does not come to rest before. It does not help to read what is queued. -/
theorem c120_fatal {E : Env} {w w' : World} (hd : w.sh.dataClosed = true) {i : Nat} {pd : ProtocolDataPayload} (hw : Holds w i pd) (hs : Steps E w w')
    (hx : w'.sh.ctxDone = false) :
    Holds w' i pd ∧ ¬ Halted E w' ∧ (w'.sh.crashed = false → Step E w' { w' with sh := { w'.sh with crashed := true } }) := by
  obtain ⟨m, e, k, ht⟩ := hw
  suffices h : w'.threads[i]? = some ⟨.data m, e, .op (.sendData pd) k⟩ ∧ w'.sh.dataClosed = true from
    ⟨⟨m, e, k, h.1⟩, fun hq => Halt.no_crash hq h.1 (.sendData h.2), fun hc => .crash i _ _ _ _ hc h.1 (.sendData h.2)⟩
  induction hs with
  | refl => exact ⟨ht, hd⟩
  | @tail b c hs hst ih =>
    cases hst with
    | env hc he => cases he <;> first | exact ih hx | cases hx
    | call c hc hh =>
      obtain ⟨h1, h2⟩ := ih hx
      exact ⟨by rw [List.getElem?_append_left (List.getElem?_eq_some_iff.mp h1).1]; exact h1, h2⟩
    | loop j g g' h hc hj =>
      obtain ⟨h1, h2⟩ := ih hx
      refine ⟨?_, h2⟩
      have hne : j ≠ i := by rintro rfl; rw [h1] at hj; cases hj
      simp only
      rw [List.getElem?_set_ne hne, h1]
    | crash j g h o k' hc hj hcr => exact ih hx
    | run j g h o k' r hc hj hex =>
      have hctx : b.sh.ctxDone = false := by rw [← Backlog.exec_ctx hex]; exact hx
      obtain ⟨h1, h2⟩ := ih hctx
      have hl : i < b.threads.length := (List.getElem?_eq_some_iff.mp h1).1
      have hne : j ≠ i := by
        rintro rfl
        rw [h1] at hj
        cases hj
        cases hex with
        | sendData hcl _ => rw [h2] at hcl; cases hcl
        | sendDataCtx hd => rw [hctx] at hd; cases hd
      refine ⟨?_, by cases hex <;> first | exact h2 | rfl⟩
      simp only
      rw [List.getElem?_append_left (by simpa using hl), List.getElem?_set_ne hne, h1]
    | sync j j' gi gj hi hj' oi oj ki kj ri rj hc hij hti htj hsy =>
      have hctx : b.sh.ctxDone = false := by cases hsy <;> exact hx
      obtain ⟨h1, h2⟩ := ih hctx
      have hne : j ≠ i := by rintro rfl; rw [h1] at hti; cases hti; cases hsy
      have hne' : j' ≠ i := by rintro rfl; rw [h1] at htj; cases htj; cases hsy
      refine ⟨?_, by cases hsy <;> exact h2⟩
      simp only
      rw [List.getElem?_set_ne hne', List.getElem?_set_ne hne, h1]

/-- C120: so a user who has not read for too long cannot close the connection: if more than the queue can hold has arrived, nothing was taken since, and the
queue is closed by `Close`, whoever called it, then the process does not come to rest without a panic unless the context is cancelled. -/
theorem c120_close {E : Env} {w₁ w₂ w : World} (hf : w₁.sh.dataQ.length = 65535) {i : Nat} {pd : ProtocolDataPayload} (hw : Holds w₁ i pd)
    (h1 : Steps E w₁ w₂) (hn : ∀ l, w₂.trace = w₁.trace ++ l → takes l = []) (hd : w₂.sh.dataClosed = true) (h2 : Steps E w₂ w)
    (hx : w.sh.ctxDone = false) : ¬ Halted E w := by
  have hx₂ : w₂.sh.ctxDone = false := by
    cases hc : w₂.sh.ctxDone with
    | false => rfl
    | true => rw [Backlog.ctx_stays h2 hc] at hx; cases hx
  exact (c120_fatal hd (c120_waits hf hw h1 hn hx₂).1 h2 hx).2.1

open Order in
/-- C120: this happens: whatever the configuration and the mode, when 65536 DATA messages have arrived and nobody has read any, the user can call `Close`, which returns
without an error; but the goroutine that has the last payload is left. -/
theorem c120_occurs (E : Env) : ∃ w₁ w₂ i pd, Reachable E w₁ ∧ w₁.sh.dataQ.length = 65535 ∧ Holds w₁ i pd ∧ Steps E w₁ w₂ ∧
    (∀ l, w₂.trace = w₁.trace ++ l → takes l = []) ∧ w₂.sh.dataClosed = true ∧ w₂.sh.ctxDone = false ∧ w₂.sh.crashed = false ∧
    returns w₂.trace = [.closed true] := by
  have hd : carries (dataMsg₁ 7) ⟨0, 0, 0, 0, 0, 0, [7]⟩ ∧ (dataMsg₁ 7).length ≤ 1500 := by decide +kernel
  obtain ⟨w, hw, sh, hq, hsh, -, -, hu, is, -, h7, h8⟩ := Backlog.pile E (List.replicate (65535 + 1) (dataMsg₁ 7, ⟨0, 0, 0, 0, 0, 0, [7]⟩))
    (fun d hm => List.eq_of_mem_replicate hm ▸ hd)
  rw [List.length_replicate, Nat.add_sub_cancel_left] at h7
  rw [List.map_replicate, List.drop_replicate, Nat.add_sub_cancel_left] at h8
  obtain ⟨i, rfl⟩ := List.length_eq_one_iff.mp h7
  have hh := h8 (i, _) (List.mem_singleton.mpr rfl)
  have hql : w.sh.dataQ.length = 65535 := by
    rw [hsh]
    simp only
    rw [List.length_take, List.length_map, List.length_replicate]
    omega
  clear h8 h7
  generalize ((List.replicate (65535 + 1) ((dataMsg₁ 7, ⟨0, 0, 0, 0, 0, 0, [7]⟩) : Bytes × ProtocolDataPayload)).map (·.2)).take 65535 = q at hsh
  have s0 : Step E w { w with threads := w.threads ++ [Thread.fresh E (.api .close)] } :=
    .call .close (by rw [hsh]; exact hq.alive) (by rw [hsh]; exact hq.handed)
  obtain ⟨w0, e0⟩ : ∃ w0, w0 = { w with threads := w.threads ++ [Thread.fresh E (.api .close)] } := ⟨_, rfl⟩
  rw [← e0] at s0
  have sh0 : w0.sh = { sh with dataQ := q } := by rw [e0]; exact hsh
  have t0 : w0.trace = w.trace := by rw [e0]
  have a0 : w0.threads[w.threads.length]? = some (Thread.fresh E (.api .close)) := by
    rw [e0]
    simp only
    rw [List.getElem?_append_right (Nat.le_refl _), Nat.sub_self]
    rfl
  obtain ⟨K, K1, f0, f1⟩ : ∃ K K1, body E (.api .close) = .op .lock K ∧ K () = .op .getSt K1 ∧ K1 .active = .op .closeEst fun _ => .op .closeAck fun _ =>
      .op .closeData fun _ => .op (.putSt .down) fun _ => .op .sctpClose fun r => .op .unlock fun _ => .op (.done (.closed r)) fun _ => .ret none :=
    ⟨_, _, rfl, rfl, rfl⟩
  rw [Thread.fresh, f0] at a0
  obtain ⟨w1, s1, sh1, a1, -, -, t1⟩ := move (E := E) (by rw [sh0]; exact hq.alive) a0 (.lock (by rw [sh0]; exact hq.unlocked)) rfl
  rw [sh0] at sh1
  rw [f1.1] at a1
  obtain ⟨w2, s2, sh2, a2, -, -, t2⟩ := move (E := E) (by rw [sh1]; exact hq.alive) a1 .getSt rfl
  rw [sh1] at sh2
  rw [sh1, show ({ sh with dataQ := q, locked := true } : Shared).st = .active from hq.st, f1.2] at a2
  obtain ⟨w3, s3, sh3, a3, -, -, t3⟩ := move (E := E) (by rw [sh2]; exact hq.alive) a2 (.closeEst (by rw [sh2]; exact hq.est)) rfl
  rw [sh2] at sh3
  obtain ⟨w4, s4, sh4, a4, -, -, t4⟩ := move (E := E) (by rw [sh3]; exact hq.alive) a3 (.closeAck (by rw [sh3]; exact hq.ack)) rfl
  rw [sh3] at sh4
  obtain ⟨w5, s5, sh5, a5, -, -, t5⟩ := move (E := E) (by rw [sh4]; exact hq.alive) a4 (.closeData (by rw [sh4]; exact hq.data)) rfl
  rw [sh4] at sh5
  obtain ⟨w6, s6, sh6, a6, -, -, t6⟩ := move (E := E) (by rw [sh5]; exact hq.alive) a5 .putSt rfl
  rw [sh5] at sh6
  obtain ⟨w7, s7, sh7, a7, -, -, t7⟩ := move (E := E) (by rw [sh6]; exact hq.alive) a6 (.sctpClose (ok := true)) rfl
  rw [sh6] at sh7
  obtain ⟨w8, s8, sh8, a8, -, -, t8⟩ := move (E := E) (by rw [sh7]; exact hq.alive) a7 .unlock rfl
  rw [sh7] at sh8
  obtain ⟨w9, s9, sh9, a9, -, -, t9⟩ := move (E := E) (by rw [sh8]; exact hq.alive) a8 .done rfl
  rw [sh8] at sh9
  refine ⟨w, w9, i, _, hw, hql, hh, ((((((((((Steps.refl w).tail s0).tail s1).tail s2).tail s3).tail s4).tail s5).tail s6).tail s7).tail s8).tail s9, fun l hl => ?_,
    by rw [sh9], by rw [sh9]; exact hq.ctx, by rw [sh9]; exact hq.alive, ?_⟩
  · rw [t9, t8, t7, t6, t5, t4, t3, t2, t1, t0] at hl
    simp only [List.append_assoc] at hl
    rw [← List.append_cancel_left hl]
    rfl
  · rw [t9, t8, t7, t6, t5, t4, t3, t2, t1, t0]
    have hr : ∀ (a : List Rec) (x : Rec), returns (a ++ [x]) = returns a ++ returns [x] := fun a x => by simp [returns]
    simp only [hr, hu]
    rfl

/-- For `c120_fatal`: one DATA message is being handled when the user calls `Close`, which returns. -/
example (E : Env) : ∃ w, Reachable E w ∧ w.sh.dataClosed = true ∧ w.sh.crashed = false ∧ w.sh.ctxDone = false ∧ Holds w 6 ⟨0, 0, 0, 0, 0, 0, [7]⟩ ∧
    returns w.trace = [.closed true] := by
  have h : ∃ w, Reachable E w ∧ (w.sh.dataClosed, w.sh.crashed, w.sh.ctxDone, (w.threads[6]?.bind fun t => match t with
      | ⟨.data _, _, .op (.sendData pd) _⟩ => some pd
      | _ => none), returns w.trace) = (true, false, false, some ⟨0, 0, 0, 0, 0, 0, [7]⟩, [.closed true]) := by
    obtain ⟨mode, cfg, hb, ms⟩ := E
    refine reach_of (cs := opening mode ++ [.deliver (dataMsg₁ 7)] ++ go 2 2 ++ go 5 2 ++ go 6 1 ++ [.call .close] ++ go 7 9) ?_
    cases mode <;> kernel_rfl
  obtain ⟨w, hw, he⟩ := h
  simp only [Prod.mk.injEq] at he
  obtain ⟨h1, h2, h3, h4, h5⟩ := he
  refine ⟨w, hw, h1, h2, h3, ?_, h5⟩
  obtain ⟨t, ht, h6⟩ := Option.bind_eq_some_iff.mp h4
  split at h6
  · cases h6
    exact ⟨_, _, _, ht⟩
  · cases h6

end M3.Conn
