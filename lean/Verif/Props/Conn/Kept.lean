import Verif.Lemmas.Conn.Keep
import Verif.Props.Conn.EndToEnd
import Verif.Spec.Handling
import Verif.Spec.Session

/- Nothing that was received, or written at the other end, is lost: C83. -/

set_option autoImplicit false
set_option linter.unusedSimpArgs false

namespace M3.Spec

open M3.Conn

/-- The call has returned without an error. -/
def succeeded (t : Thread) : Prop := ∃ n, .wrote n ∈ t.hist.filterMap returned?

end M3.Spec

namespace M3.Conn

open Spec

open Classical in
/-- Payloads in `P` count, at each stage from being received to being queued. -/
noncomputable def Keep.payloads (P : ProtocolDataPayload → Prop) : Keep.Weights where
  raw b := if ∃ pd, carries b pd ∧ P pd then 1 else 0
  data m := if ∃ p pd, m.protocolData = some p ∧ payloadOf p = some pd ∧ P pd then 1 else 0
  pd pd := if P pd then 1 else 0

theorem carries_payload {b : Bytes} {m : Msg.Data} (hp : M3UA.parse b = .ok (.data m)) {pd : ProtocolDataPayload}
    (h : carries b pd = true) : ∃ p, m.protocolData = some p ∧ payloadOf p = some pd := by
  simp only [carries, hp, decide_eq_true_iff] at h
  obtain ⟨-, h⟩ := h
  cases hm : m.protocolData with
  | none => rw [hm] at h; cases h
  | some p =>
    rw [hm, Option.map_some, Option.some.injEq] at h
    exact ⟨p, rfl, (payloadOf_iff (parsed_pd hp hm)).mpr h⟩

open Classical in
theorem Keep.payloads_fair (P : ProtocolDataPayload → Prop) : (Keep.payloads P).Fair where
  data b m hp := ite_le fun ⟨pd, h1, h2⟩ => by
    obtain ⟨p, h3, h4⟩ := carries_payload hp h1
    exact ⟨p, pd, h3, h4, h2⟩
  pd m p pd h1 h2 := ite_le fun ⟨q, qd, h3, h4, h5⟩ => by
    rw [h1] at h3; cases h3
    rw [h2] at h4; cases h4
    exact h5
  empty m h := if_neg fun ⟨p, pd, h1, h2, _⟩ => h p pd h1 h2
  other b h := if_neg fun ⟨pd, h1, _⟩ => h (by
    unfold carries at h1
    split at h1
    · rename_i m hp
      have h1 := (decide_eq_true_iff.mp h1).1
      simp only [meaning, hp, h1, if_true, M3UA.kind]
    · cases h1)

open Classical in
/-- C83: when all handlers have ended, the context is not done and no DATA was refused, then every payload that was received has
been taken by a reader or is in the queue: for any set `P` of payloads, those taken and those in the queue are together exactly
as many as the received DATA messages that carry one. -/
theorem c83_received {E : Env} {w : World} (h : Reachable E w) (hc : w.sh.ctxDone = false) (hs : Settled w)
    (hr : ∀ m, .unexpectedMessage (.data m) ∉ complaints w.trace) (P : ProtocolDataPayload → Prop) :
    (takes w.trace).countP (fun x => ∃ pd, x = some pd ∧ P pd) + w.sh.dataQ.countP (fun pd => P pd) =
      (receives w.trace).countP (fun raw => ∃ pd, carries raw pd ∧ P pd) := by
  apply Nat.le_antisymm (c50_taken h P)
  have hb := Keep.bound (Keep.payloads_fair P) h hc hs
  have e1 : tot (Keep.payloads P).raw (receives w.trace) = (receives w.trace).countP (fun raw => ∃ pd, carries raw pd ∧ P pd) := by
    rw [← tot_countP]; simp [Keep.payloads]
  have e2 : tot (Keep.payloads P).pd (queues w.trace) = (queues w.trace).countP (fun pd => P pd) := by
    rw [← tot_countP]; simp [Keep.payloads]
  have e3 : tot (Keep.payloads P).ev w.trace = 0 := by
    refine Keep.tot_zero_of fun x hx => ?_
    unfold Keep.Weights.ev
    split
    · rename_i m _ he
      exact (hr m (List.mem_filterMap.mpr ⟨x, hx, by rw [he]; rfl⟩)).elim
    · rfl
  rw [e1, e2, e3, ← (c66_fifo h).2 hc, List.countP_append, List.countP_filterMap] at hb
  refine Nat.le_trans hb (Nat.le_of_eq ?_)
  rw [Nat.add_zero]
  congr 1
  refine List.countP_congr fun x _ => ?_
  cases x <;> simp

open Classical in
/-- C83: two endpoints. If in addition nothing is under way or waiting to be read, everything that was sent has arrived. -/
theorem c83_sent {Ea Eb : Env} {p : Link} (h : Link.Reachable Ea Eb p) (hl : ∀ s ∈ sends p.a.trace, s.bytes.length ≤ 1500)
    (ht : p.toB = []) (hi : p.b.sh.inbox = []) (hc : p.b.sh.ctxDone = false) (hs : Settled p.b)
    (hr : ∀ m, .unexpectedMessage (.data m) ∉ complaints p.b.trace) (P : ProtocolDataPayload → Prop) :
    (takes p.b.trace).countP (fun x => ∃ pd, x = some pd ∧ P pd) + p.b.sh.dataQ.countP (fun pd => P pd) =
      (sends p.a.trace).countP (fun s => ∃ pd, carries s.bytes pd ∧ P pd) := by
  have hp := h.transit (fun d hd => by obtain ⟨s, hs', rfl⟩ := List.mem_map.mp hd; exact hl s hs')
  rw [ht, hi, List.append_nil, List.append_nil] at hp
  have := hp.countP_eq (fun raw => decide (∃ pd, carries raw pd ∧ P pd))
  rw [c83_received h.ends.2 hc hs hr P, this, World.out, List.countP_map]
  rfl

/-- A call that has succeeded has sent what it was meant to send. -/
theorem succeeded_sends {E : Env} {w : World} (h : Reachable E w) {i : Nat} {t : Thread} (ht : w.threads[i]? = some t)
    {c : Api} (hc : t.gor = .api c) (hs : succeeded t) {d : Bytes} (hm : meant E.cfg c d) :
    ∃ x, sends (w.of i) = [x] ∧ x.bytes = d := by
  obtain ⟨n, hn⟩ := hs
  have hn : .wrote n ∈ returns (w.of i) := by
    rw [(Follows.api h ht hc).2, returns, List.filterMap_map]
    exact hn
  have outcome : ∀ {d : Bytes} {S : UInt16 → Prop} {obs : List St} {l : List Sent}, WriteOutcome d S obs l (.wrote n) →
      ∃ x, l = [x] ∧ x.bytes = d := by
    rintro d S obs l (⟨_, _, _, _, h⟩ | ⟨_, x, h1, h2, _⟩)
    · cases h
    · exact ⟨x, h1, h2⟩
  cases c with
  | write b => obtain rfl : d = _ := hm; exact outcome (c41_write h ht hc hn)
  | writeToStream b s => obtain rfl : d = _ := hm; exact outcome (c41_writeToStream h ht hc hn)
  | writePD pd => obtain rfl : d = _ := hm; exact outcome (c41_writePD h ht hc hn)
  | writePDToStream pd s => obtain rfl : d = _ := hm; exact outcome (c41_writePDToStream h ht hc hn)
  | writeSignal m =>
    obtain ⟨x, h1, ⟨m₁, h2⟩, -⟩ := c41_writeSignal h ht hc hn
    obtain ⟨m₂, h3⟩ := (show m.Encodes d from hm)
    rw [h2] at h3
    cases h3
    exact ⟨x, h1, rfl⟩
  | _ => cases hm

open Classical in
/-- The calls meant to send a payload that have succeeded are at most as many as the datagrams sent. -/
theorem calls_sends {E : Env} {w : World} (h : Reachable E w) (P : ProtocolDataPayload → Prop) :
    w.threads.countP (fun t => transmits E.cfg P t.gor ∧ succeeded t) ≤
    (sends w.trace).countP (fun s => ∃ pd, carries s.bytes pd ∧ P pd) := by
  rw [sends, List.countP_filterMap, countP_by_tid _ w.threads.length _ (Follows.reach h).1, ← tot_countP, tot_index _ w.threads]
  refine tot_le fun i hi => ?_
  have hi : i < w.threads.length := by simpa using hi
  rw [List.getElem?_eq_getElem hi]
  have ht : w.threads[i]? = some w.threads[i] := List.getElem?_eq_getElem hi
  generalize w.threads[i] = t at ht
  simp only
  split
  · rename_i hd
    obtain ⟨⟨c, d, pd, hg, hm, hc, hP⟩, hs⟩ := decide_eq_true_iff.mp hd
    obtain ⟨x, hx, rfl⟩ := succeeded_sends h ht hg hs hm
    refine List.countP_pos_iff.mpr ?_
    have : x ∈ sends (w.of i) := by rw [hx]; exact List.mem_singleton.mpr rfl
    obtain ⟨y, hy, hxy⟩ := List.mem_filterMap.mp this
    exact ⟨y, hy, by rw [hxy]; exact decide_eq_true ⟨pd, hc, hP⟩⟩
  · exact Nat.zero_le _

open Classical in
/-- C83: so every payload given to a call that has succeeded has been taken by a reader at the other end, or is in the queue
there. -/
theorem c83_written {Ea Eb : Env} {p : Link} (h : Link.Reachable Ea Eb p) (hl : ∀ s ∈ sends p.a.trace, s.bytes.length ≤ 1500)
    (ht : p.toB = []) (hi : p.b.sh.inbox = []) (hc : p.b.sh.ctxDone = false) (hs : Settled p.b)
    (hr : ∀ m, .unexpectedMessage (.data m) ∉ complaints p.b.trace) (P : ProtocolDataPayload → Prop) :
    p.a.threads.countP (fun t => transmits Ea.cfg P t.gor ∧ succeeded t) ≤
      (takes p.b.trace).countP (fun x => ∃ pd, x = some pd ∧ P pd) + p.b.sh.dataQ.countP (fun pd => P pd) := by
  rw [c83_sent h hl ht hi hc hs hr P]
  exact calls_sends h.ends.1 P

/-- Can be evaluated. -/
def settledB (w : World) : Bool :=
  w.threads.all fun t => match t.prog, t.gor with
    | .ret _, _ => true
    | .op _ _, .packet _ => false
    | .op _ _, .data _ => false
    | .op (.spawn (.packet _)) _, _ => false
    | _, _ => true

theorem settledB_sound {w : World} (h : settledB w = true) : Settled w := by
  intro t ht o k hp
  have := List.all_eq_true.mp h t ht
  rw [hp] at this
  refine ⟨fun b hb => ?_, fun m hm => ?_, fun b hb => ?_⟩
  · rw [hb] at this; cases this
  · rw [hm] at this; cases this
  · subst hb; revert this; cases t.gor <;> simp

/-- The handshake, two calls of `Write` at the client that succeed, one of `ReadPD` at the server: all premises of `c83_written` hold,
one payload has been read, the other one is in the queue. -/
example : ∃ p, Link.Reachable E₀ { E₀ with mode := .server } p ∧ (∀ s ∈ sends p.a.trace, s.bytes.length ≤ 1500) ∧ p.toB = [] ∧
    p.b.sh.inbox = [] ∧ p.b.sh.ctxDone = false ∧ Settled p.b ∧ complaints p.b.trace = [] ∧
    (p.a.threads.drop 6).map (fun t => (t.gor, t.hist.filterMap returned?)) =
      [(.api (.write [8, 9]), [.wrote 56]), (.api (.write [7]), [.wrote 56])] ∧
    (takes p.b.trace, p.b.sh.dataQ) = ([some (payloadFor E₀.cfg [8, 9])], [payloadFor E₀.cfg [7]]) := by
  obtain ⟨p, h1, h2⟩ := link_of (Ea := E₀) (Eb := { E₀ with mode := .server }) (f := fun p =>
      ((sends p.a.trace).all (fun s => s.bytes.length ≤ 1500), p.toB, p.b.sh.inbox, p.b.sh.ctxDone, settledB p.b,
        complaints p.b.trace, (p.a.threads.drop 6).map (fun t => (t.gor, t.hist.filterMap returned?)), takes p.b.trace, p.b.sh.dataQ))
    (cs := shake ++ onA ([.call (.write [8, 9]), .run 6 (.std 2)] ++ go 6 2 ++ [.run 6 (.std 28)] ++ go 6 1 ++
        [.call (.write [7]), .run 7 (.std 2)] ++ go 7 2 ++ [.run 7 (.std 28)] ++ go 7 1) ++
      .toB 0 :: onB (go 2 2 ++ [.loop 2] ++ go 6 3 ++ [.sync 6 2] ++ go 7 2 ++ go 2 4) ++
      .toB 0 :: onB (go 2 2 ++ [.loop 2] ++ go 8 3 ++ [.sync 8 2] ++ go 9 2 ++ go 2 4 ++ [.call .readPD] ++ go 10 3))
    (v := (true, [], [], false, true, [], [(.api (.write [8, 9]), [.wrote 56]), (.api (.write [7]), [.wrote 56])],
      [some (payloadFor E₀.cfg [8, 9])], [payloadFor E₀.cfg [7]])) (by kernel_rfl)
  simp only [Prod.mk.injEq] at h2
  obtain ⟨h2, h3, h4, h5, h6, h7, h8, h9, h10⟩ := h2
  exact ⟨p, h1, by simpa using h2, h3, h4, h5, settledB_sound h6, h7, h8, by rw [h9, h10]⟩

/-- The handshake up to the moment when `Accept` has returned and ASP Active Ack is under way; the server's user writes; the DATA
message overtakes ASP Active Ack. -/
def overtaking : List LChoice :=
  onA (boot .client) ++ onB (boot .server) ++
  .toB 0 :: onB (go 2 2 ++ [.loop 2] ++ go 4 5 ++ [.sync 4 2] ++ go 2 4) ++
  .toA 0 :: onA (go 2 2 ++ [.loop 2] ++ go 4 3 ++ [.sync 4 2] ++ go 2 6) ++
  .toB 0 :: onB (go 2 2 ++ [.loop 2] ++ go 5 4 ++ [.sync 5 2] ++ go 2 3 ++ [.sync 2 0] ++ go 2 2 ++ go 0 1 ++
    [.call (.write [8, 9]), .run 6 (.std 2)] ++ go 6 2 ++ [.run 6 (.std 28)] ++ go 6 1) ++
  .toA 1 :: onA (go 2 2 ++ [.loop 2] ++ go 5 3 ++ go 6 1 ++ [.sync 6 2] ++ go 2 2 ++ [.loop 2, .sync 5 2] ++ go 2 6) ++
  .toA 0 :: onA (go 2 2 ++ [.loop 2] ++ go 7 2 ++ [.sync 7 2] ++ go 2 3 ++ [.sync 2 0] ++ go 2 2 ++ go 0 1)

/-- C83: the premise that no DATA was refused is needed, even between two endpoints of this library on an association without losses.
DATA and ASP Active Ack go out on different streams, between which SCTP keeps no order. If DATA overtakes ASP Active Ack, it is lost: `Write`
succeeded, nothing is under way, both endpoints are active, and the payload is nowhere. -/
theorem c83_overtaken : ∃ p, Link.Reachable E₀ { E₀ with mode := .server } p ∧
    (p.b.threads.drop 6).map (fun t => (t.gor, t.hist.filterMap returned?)) = [(.api (.write [8, 9]), [.wrote 56])] ∧
    (sends p.b.trace).map (fun s => (s.bytes, s.stream)) =
      [(message 1 3 4 [], 0), (message 1 4 3 [], 0), (dataOf E₀.cfg [8, 9], 3)] ∧
    receives p.a.trace = [message 1 3 4 [], dataOf E₀.cfg [8, 9], message 1 4 3 []] ∧
    p.toA = [] ∧ p.a.sh.inbox = [] ∧ p.a.sh.ctxDone = false ∧ Settled p.a ∧ p.a.sh.st = .active ∧ p.b.sh.st = .active ∧
    takes p.a.trace = [] ∧ p.a.sh.dataQ = [] := by
  obtain ⟨p, h1, h2⟩ := link_of (Ea := E₀) (Eb := { E₀ with mode := .server }) (cs := overtaking) (f := fun p =>
      ((p.b.threads.drop 6).map (fun t => (t.gor, t.hist.filterMap returned?)), (sends p.b.trace).map (fun s => (s.bytes, s.stream)),
        receives p.a.trace, p.toA, p.a.sh.inbox, p.a.sh.ctxDone, settledB p.a, p.a.sh.st, p.b.sh.st, takes p.a.trace, p.a.sh.dataQ))
    (v := ([(.api (.write [8, 9]), [.wrote 56])], [(message 1 3 4 [], 0), (message 1 4 3 [], 0), (dataOf E₀.cfg [8, 9], 3)],
      [message 1 3 4 [], dataOf E₀.cfg [8, 9], message 1 4 3 []], [], [], false, true, .active, .active, [], [])) (by kernel_rfl)
  simp only [Prod.mk.injEq] at h2
  obtain ⟨h2, h3, h4, h5, h6, h7, h8, h9, h10, h11, h12⟩ := h2
  exact ⟨p, h1, h2, h3, h4, h5, h6, h7, settledB_sound h8, h9, h10, h11, h12⟩

end M3.Conn
