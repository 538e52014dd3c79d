import Verif.Lemmas.Conn.Sched
import Verif.Props.Conn.Delivery
import Verif.Props.Conn.Flow

/- Every order of payloads is possible: C51. -/

set_option autoImplicit false
set_option linter.unusedSimpArgs false

namespace M3.Conn

open Spec

namespace Order

/-- An open connection that is active and has nothing to do. -/
structure Quiet (sh : Shared) : Prop where
  st : sh.st = .active
  unlocked : sh.locked = false
  est : sh.estClosed = false
  ack : sh.ackClosed = false
  data : sh.dataClosed = false
  queue : sh.dataQ = []
  inbox : sh.inbox = []
  assoc : sh.sctpClosed = false
  ctx : sh.ctxDone = false
  handed : sh.handed = true
  alive : sh.crashed = false

/-- A goroutine completes an operation that starts no other. -/
theorem move {E : Env} {w : World} {i : Nat} {g : Gor} {h : List Ev} {o : Op} {k : Resp o → Prog (Option Gor)} {r : Resp o} {sh' : Shared}
    (hc : w.sh.crashed = false) (ht : w.threads[i]? = some ⟨g, h, .op o k⟩) (hx : Exec w.sh o r sh') (hs : spawned o = []) :
    ∃ w', Step E w w' ∧ w'.sh = sh' ∧ w'.threads[i]? = some ⟨g, h ++ [⟨o, r⟩], k r⟩ ∧ (∀ j, j ≠ i → w'.threads[j]? = w.threads[j]?) ∧
      w'.threads.length = w.threads.length ∧ w'.trace = w.trace ++ [⟨i, g, o, r⟩] := by
  have hl : i < w.threads.length := (List.getElem?_eq_some_iff.mp ht).1
  refine ⟨_, .run i g h o k r hc ht hx, rfl, ?_, fun j hj => ?_, ?_, rfl⟩
  · simp only [hs, List.map_nil, List.append_nil]
    rw [List.getElem?_set_self hl]
  · simp only [hs, List.map_nil, List.append_nil]
    rw [List.getElem?_set_ne (Ne.symm hj)]
  · simp only [hs, List.map_nil, List.append_nil, List.length_set]

/-- A goroutine starts another. -/
theorem start {E : Env} {w : World} {i : Nat} {g g' : Gor} {h : List Ev} {k : Resp (.spawn g') → Prog (Option Gor)}
    (hc : w.sh.crashed = false) (ht : w.threads[i]? = some ⟨g, h, .op (.spawn g') k⟩) :
    ∃ w', Step E w w' ∧ w'.sh = w.sh ∧ w'.threads[i]? = some ⟨g, h ++ [⟨.spawn g', ()⟩], k ()⟩ ∧ w'.threads[w.threads.length]? = some (.fresh E g') ∧
      (∀ j, j ≠ i → j ≠ w.threads.length → w'.threads[j]? = w.threads[j]?) ∧
      w'.threads.length = w.threads.length + 1 ∧ w'.trace = w.trace ++ [⟨i, g, .spawn g', ()⟩] := by
  have hl : i < w.threads.length := (List.getElem?_eq_some_iff.mp ht).1
  refine ⟨_, .run i g h _ k () hc ht .spawn, rfl, ?_, ?_, fun j hj hj' => ?_, ?_, rfl⟩
  · rw [List.getElem?_append_left (by simpa using hl), List.getElem?_set_self hl]
  · rw [List.getElem?_append_right (by simp)]
    simp [spawned]
  · by_cases hjl : j < w.threads.length
    · rw [List.getElem?_append_left (by simpa using hjl), List.getElem?_set_ne (Ne.symm hj)]
    · rw [List.getElem?_eq_none (by simp [spawned]; omega), List.getElem?_eq_none (by omega)]
  · simp [spawned]

/-- A goroutine goes on with the next code. -/
theorem next {E : Env} {w : World} {i : Nat} {g g' : Gor} {h : List Ev} (hc : w.sh.crashed = false)
    (ht : w.threads[i]? = some ⟨g, h, .ret (some g')⟩) :
    ∃ w', Step E w w' ∧ w'.sh = w.sh ∧ w'.threads[i]? = some (.fresh E g') ∧ (∀ j, j ≠ i → w'.threads[j]? = w.threads[j]?) ∧
      w'.threads.length = w.threads.length ∧ w'.trace = w.trace := by
  have hl : i < w.threads.length := (List.getElem?_eq_some_iff.mp ht).1
  exact ⟨_, .loop i g g' h hc ht, rfl, List.getElem?_set_self hl, fun j hj => List.getElem?_set_ne (Ne.symm hj), List.length_set, rfl⟩

/-- A state is reported to the monitor. -/
theorem tell {E : Env} {w : World} {i j : Nat} {gi gj : Gor} {hi hj : List Ev} {s : St} {ki : Resp (.sendState s) → Prog (Option Gor)}
    {kj : Resp .monSelect → Prog (Option Gor)} (hc : w.sh.crashed = false) (hne : i ≠ j) (hti : w.threads[i]? = some ⟨gi, hi, .op (.sendState s) ki⟩)
    (htj : w.threads[j]? = some ⟨gj, hj, .op .monSelect kj⟩) :
    ∃ w', Step E w w' ∧ w'.sh = w.sh ∧ w'.threads[j]? = some ⟨gj, hj ++ [⟨.monSelect, .state s⟩], kj (.state s)⟩ ∧
      (∀ k, k ≠ i → k ≠ j → w'.threads[k]? = w.threads[k]?) ∧ w'.threads.length = w.threads.length ∧
      w'.trace = w.trace ++ [⟨i, gi, .sendState s, ()⟩, ⟨j, gj, .monSelect, .state s⟩] := by
  have hl : j < w.threads.length := (List.getElem?_eq_some_iff.mp htj).1
  refine ⟨_, .sync i j gi gj hi hj _ _ ki kj _ _ hc hne hti htj .state, rfl, ?_, fun k h1 h2 => ?_, ?_, rfl⟩
  · exact List.getElem?_set_self (by rw [List.length_set]; exact hl)
  · rw [List.getElem?_set_ne (Ne.symm h2), List.getElem?_set_ne (Ne.symm h1)]
  · simp only [List.length_set]

/-- A datagram arrives and is read. -/
theorem fetch {E : Env} {w : World} {i : Nat} {g : Gor} {h : List Ev} {k : Resp (.read 1500) → Prog (Option Gor)} (hq : Quiet w.sh) {raw : Bytes}
    (hl : raw.length ≤ 1500) (ht : w.threads[i]? = some ⟨g, h, .op (.read 1500) k⟩) :
    ∃ w', Steps E w w' ∧ w'.sh = w.sh ∧ w'.threads[i]? = some ⟨g, h ++ [⟨.read 1500, some raw⟩], k (some raw)⟩ ∧
      (∀ j, j ≠ i → w'.threads[j]? = w.threads[j]?) ∧ w'.threads.length = w.threads.length ∧ w'.trace = w.trace ++ [⟨i, g, .read 1500, some raw⟩] := by
  have s0 : Step E w { w with sh := { w.sh with inbox := w.sh.inbox ++ [raw] } } := .env hq.alive (.deliver raw)
  have hx : Exec { w.sh with inbox := w.sh.inbox ++ [raw] } (.read 1500) (some raw) w.sh := by
    have e : w.sh = { ({ w.sh with inbox := w.sh.inbox ++ [raw] } : Shared) with inbox := [] } := by rw [← hq.inbox]
    have hx := Exec.read (sh := { w.sh with inbox := w.sh.inbox ++ [raw] }) (n := 1500) (d := raw) (q := []) hq.assoc
      (by simp only [hq.inbox, List.nil_append]) hl
    rw [← e] at hx
    exact hx
  obtain ⟨w1, s1, sh1, a1, b1, l1, t1⟩ := move (E := E) (w := { w with sh := { w.sh with inbox := w.sh.inbox ++ [raw] } }) hq.alive ht hx rfl
  exact ⟨w1, .tail (.tail (.refl _) s0) s1, sh1, a1, b1, l1, t1⟩

/-- What the monitor does with a datagram. -/
def taken : Resp (.read 1500) → Prog (Option Gor)
  | none => monitorExit
  | some raw => .op (.spawn (.packet raw)) fun _ => .ret (some .monitorLoop)

/-- The monitor is told that the state is (still) active. -/
theorem monitor_code (E : Env) : ∃ K K1 K2 K3 K4, body E .monitorLoop = .op .monSelect K ∧ K (.state .active) = .op .lock K1 ∧ K1 () = .op .getSt K2 ∧
    K2 .active = .op (.putSt .active) K3 ∧ K3 () = .op .unlock K4 ∧ K4 () = .op (.read 1500) taken := by
  obtain ⟨mode, cfg, hb, ms⟩ := E
  cases mode
  · refine ⟨_, _, _, _, _, rfl, rfl, rfl, rfl, rfl, ?_⟩
    exact congrArg (Prog.op (.read 1500)) (funext fun r => by cases r <;> rfl)
  · refine ⟨_, _, _, _, _, rfl, rfl, rfl, rfl, rfl, ?_⟩
    exact congrArg (Prog.op (.read 1500)) (funext fun r => by cases r <;> rfl)

theorem packet_code (E : Env) {raw : Bytes} {m : Msg.Data} (hp : M3UA.parse raw = .ok (.data m)) (hv : m.version = 1) :
    ∃ K, body E (.packet raw) = .op .ctxDone K ∧ K false = .op (.spawn (.data m)) fun _ => .op .state fun s => .op (.sendState s) fun _ => .ret none := by
  have hv' : (M3UA.data m).version = 1 := hv
  have e : body E (.packet raw) = (handleSignals E (.data m)).bind fun _ => .ret none := by
    show Prog.bind (packet E raw) _ = _
    rw [packet, hp]
    rfl
  rw [e]
  refine ⟨_, rfl, ?_⟩
  simp only [Prog.bind, Bool.false_eq_true, if_false, hv', ne_eq, not_true_eq_false]
  rfl

theorem data_code (E : Env) {m : Msg.Data} {p : Param} {pd : ProtocolDataPayload} (hm : m.protocolData = some p) (hp : p.protocolData = .ok pd) :
    ∃ K, body E (.data m) = .op .state K ∧ K .active = .op (.sendData pd) fun _ => .ret none := by
  refine ⟨_, rfl, ?_⟩
  simp only [ne_eq, not_true_eq_false, if_false, hm, hp]
  rfl

/-- A connection waiting for a datagram. -/
structure At (w : World) : Prop where
  quiet : Quiet w.sh
  monitor : ∃ h, w.threads[2]? = some ⟨.monitorLoop, h, .op (.read 1500) taken⟩

/-- A datagram arrives, its handler starts a goroutine for the payload, and the connection waits for the next one. -/
theorem round {E : Env} {w : World} (h : At w) {raw : Bytes} {m : Msg.Data} (hp : M3UA.parse raw = .ok (.data m)) (hv : m.version = 1)
    (hl : raw.length ≤ 1500) :
    ∃ w', Steps E w w' ∧ At w' ∧ w'.threads[w.threads.length + 1]? = some (.fresh E (.data m)) ∧
      (∀ j, j ≠ 2 → j < w.threads.length → w'.threads[j]? = w.threads[j]?) ∧ w'.threads.length = w.threads.length + 2 ∧
      receives w'.trace = receives w.trace ++ [raw] ∧ returns w'.trace = returns w.trace := by
  obtain ⟨hq, h0, ht⟩ := h
  have h2 : 2 < w.threads.length := (List.getElem?_eq_some_iff.mp ht).1
  obtain ⟨K, K1, K2, K3, K4, e0, e1, e2, e3, e4, e5⟩ := monitor_code E
  obtain ⟨P, p0, p1⟩ := packet_code E hp hv
  have hne : w.threads.length ≠ 2 := by omega
  -- the datagram is read, the monitor starts the handler and goes back
  obtain ⟨w1, s1, sh1, a1, b1, l1, t1⟩ := fetch (E := E) hq hl ht
  obtain ⟨w2, s2, sh2, a2, n2, b2, l2, t2⟩ := start (E := E) (by rw [sh1]; exact hq.alive) a1
  rw [sh1] at sh2
  obtain ⟨w3, s3, sh3, a3, b3, l3, t3⟩ := next (E := E) (by rw [sh2]; exact hq.alive) a2
  rw [sh2] at sh3
  rw [Thread.fresh, e0] at a3
  -- the handler
  have n3 : w3.threads[w.threads.length]? = some ⟨.packet raw, [], .op .ctxDone P⟩ := by
    rw [b3 _ hne, ← l1, n2, Thread.fresh, p0]
  obtain ⟨w4, s4, sh4, a4, b4, l4, t4⟩ := move (E := E) (by rw [sh3]; exact hq.alive) n3 .ctxDone rfl
  rw [sh3] at sh4
  rw [sh3, hq.ctx, p1] at a4
  obtain ⟨w5, s5, sh5, a5, n5, b5, l5, t5⟩ := start (E := E) (by rw [sh4]; exact hq.alive) a4
  rw [sh4] at sh5
  obtain ⟨w6, s6, sh6, a6, b6, l6, t6⟩ := move (E := E) (by rw [sh5]; exact hq.alive) a5 (.state (by rw [sh5]; exact hq.unlocked)) rfl
  rw [sh5] at sh6
  rw [sh5, hq.st] at a6
  have m6 : w6.threads[2]? = some ⟨.monitorLoop, [], .op .monSelect K⟩ := by
    rw [b6 2 (Ne.symm hne), b5 2 (Ne.symm hne) (by omega), b4 2 (Ne.symm hne), a3]
  -- the monitor is told the state
  obtain ⟨w7, s7, sh7, a7, b7, l7, t7⟩ := tell (E := E) (by rw [sh6]; exact hq.alive) hne a6 m6
  rw [sh6] at sh7
  rw [e1] at a7
  obtain ⟨w8, s8, sh8, a8, b8, l8, t8⟩ := move (E := E) (by rw [sh7]; exact hq.alive) a7 (.lock (by rw [sh7]; exact hq.unlocked)) rfl
  rw [sh7] at sh8
  rw [e2] at a8
  obtain ⟨w9, s9, sh9, a9, b9, l9, t9⟩ := move (E := E) (by rw [sh8]; exact hq.alive) a8 .getSt rfl
  rw [sh8] at sh9
  rw [sh8, show ({ w.sh with locked := true } : Shared).st = .active from hq.st, e3] at a9
  obtain ⟨wa, sa, sha, aa, ba, la, ta⟩ := move (E := E) (by rw [sh9]; exact hq.alive) a9 .putSt rfl
  rw [sh9] at sha
  rw [e4] at aa
  obtain ⟨wb, sb, shb, ab, bb, lb, tb⟩ := move (E := E) (by rw [sha]; exact hq.alive) aa .unlock rfl
  rw [sha] at shb
  rw [e5] at ab
  have hsh : wb.sh = w.sh := by
    rw [shb]
    obtain ⟨⟨st, locked, ec, ac, dc, dq, ib, sc, cd, inf, br, bf, co, ha, cr⟩, ths, tr⟩ := w
    have q1 : st = .active := hq.st
    have q2 : locked = false := hq.unlocked
    rw [q1, q2]
  refine ⟨wb, ((((((((((s1.tail s2).tail s3).tail s4).tail s5).tail s6).tail s7).tail s8).tail s9).tail sa).tail sb),
    ⟨by rw [hsh]; exact hq, _, ab⟩, ?_, fun j hj hjl => ?_, by omega, ?_, ?_⟩
  · have hx : w.threads.length + 1 = w4.threads.length := by omega
    rw [bb _ (by omega), ba _ (by omega), b9 _ (by omega), b8 _ (by omega), b7 _ (by omega) (by omega), b6 _ (by omega), hx, n5]
  · rw [bb _ hj, ba _ hj, b9 _ hj, b8 _ hj, b7 _ (by omega) hj, b6 _ (by omega), b5 _ (by omega) (by omega), b4 _ (by omega), b3 _ hj,
      b2 _ hj (by omega), b1 _ hj]
  · rw [tb, ta, t9, t8, t7, t6, t5, t4, t3, t2, t1]
    simp [receives, received?]
  · rw [tb, ta, t9, t8, t7, t6, t5, t4, t3, t2, t1]
    simp [returns, returned?]

/-- Goroutines that have a payload to queue and have not begun. -/
def Pending (E : Env) (w : World) (l : List (Nat × ProtocolDataPayload)) : Prop :=
  (l.map (·.1)).Nodup ∧ ∀ x ∈ l, x.1 ≠ 2 ∧ ∃ m p, m.protocolData = some p ∧ p.protocolData = .ok x.2 ∧ w.threads[x.1]? = some (.fresh E (.data m))

/-- All datagrams are received before any payload is queued. -/
theorem collect {E : Env} (ds : List (Bytes × ProtocolDataPayload)) : ∀ {w : World} {l : List (Nat × ProtocolDataPayload)}, At w → Pending E w l →
    (∀ d ∈ ds, carries d.1 d.2 ∧ d.1.length ≤ 1500) →
    ∃ w' l', Steps E w w' ∧ At w' ∧ Pending E w' (l ++ l') ∧ l'.map (·.2) = ds.map (·.2) ∧ receives w'.trace = receives w.trace ++ ds.map (·.1) ∧
      returns w'.trace = returns w.trace := by
  induction ds with
  | nil => exact fun {w l} h hp _ => ⟨w, [], .refl _, h, by rwa [List.append_nil], rfl, by simp, rfl⟩
  | cons d ds ih =>
    intro w l h hp hd
    obtain ⟨m, p, hm, -, hv, hmp, hpd⟩ := carries_data (hd d List.mem_cons_self).1
    have hpd : p.protocolData = .ok d.2 := by
      unfold payloadOf at hpd
      split at hpd
      · cases hpd
        assumption
      · cases hpd
    obtain ⟨w1, s1, h1, n1, b1, l1, r1, t1⟩ := round (E := E) h hm hv (hd d List.mem_cons_self).2
    have h2 : 2 < w.threads.length := by
      obtain ⟨h0, ht⟩ := h.monitor
      exact (List.getElem?_eq_some_iff.mp ht).1
    have hlt : ∀ x ∈ l, x.1 < w.threads.length := by
      intro x hx
      obtain ⟨-, m, p, -, -, ht⟩ := hp.2 x hx
      exact (List.getElem?_eq_some_iff.mp ht).1
    have hp1 : Pending E w1 (l ++ [(w.threads.length + 1, d.2)]) := by
      constructor
      · rw [List.map_append, List.nodup_append]
        refine ⟨hp.1, by simp, ?_⟩
        intro a ha b hb
        obtain ⟨x, hx, rfl⟩ := List.mem_map.mp ha
        simp only [List.map_cons, List.map_nil, List.mem_singleton] at hb
        have := hlt x hx
        omega
      · intro x hx
        rcases List.mem_append.mp hx with hx | hx
        · obtain ⟨hn, m, p, e1, e2, e3⟩ := hp.2 x hx
          exact ⟨hn, m, p, e1, e2, by rw [b1 _ hn (hlt x hx)]; exact e3⟩
        · rw [List.mem_singleton] at hx
          subst hx
          exact ⟨by simp only; omega, m, p, hmp, hpd, n1⟩
    obtain ⟨w', l', s', h', hp', e1, e2, e3⟩ := ih h1 hp1 (fun x hx => hd x (List.mem_cons_of_mem _ hx))
    refine ⟨w', (w.threads.length + 1, d.2) :: l', ?_, h', by simpa using hp', by simp [e1], by rw [e2, r1]; simp, by rw [e3, t1]⟩
    exact Steps.trans s1 s'

/-- One payload is queued and read. -/
theorem hand {E : Env} {w : World} (h : At w) {x : Nat × ProtocolDataPayload} {l : List (Nat × ProtocolDataPayload)} (hp : Pending E w (x :: l)) :
    ∃ w', Steps E w w' ∧ At w' ∧ Pending E w' l ∧ receives w'.trace = receives w.trace ∧ returns w'.trace = returns w.trace ++ [.pd x.2] := by
  obtain ⟨hq, h0, ht⟩ := h
  have h2 : 2 < w.threads.length := (List.getElem?_eq_some_iff.mp ht).1
  obtain ⟨hn, m, p, hm, hpd, hx⟩ := hp.2 x List.mem_cons_self
  have hxl : x.1 < w.threads.length := (List.getElem?_eq_some_iff.mp hx).1
  obtain ⟨D, d0, d1⟩ := data_code E hm hpd
  rw [Thread.fresh, d0] at hx
  obtain ⟨w1, s1, sh1, a1, b1, l1, t1⟩ := move (E := E) hq.alive hx (.state hq.unlocked) rfl
  rw [hq.st, d1] at a1
  obtain ⟨w2, s2, sh2, a2, b2, l2, t2⟩ := move (E := E) (by rw [sh1]; exact hq.alive) a1
    (.sendData (by rw [sh1]; exact hq.data) (by rw [sh1, hq.queue]; decide)) rfl
  rw [sh1] at sh2
  have c2 : w2.sh.crashed = false := by rw [sh2]; exact hq.alive
  have s3 : Step E w2 { w2 with threads := w2.threads ++ [Thread.fresh E (.api .readPD)] } := .call .readPD c2 (by rw [sh2]; exact hq.handed)
  obtain ⟨w3, e3⟩ : ∃ w3, w3 = { w2 with threads := w2.threads ++ [Thread.fresh E (.api .readPD)] } := ⟨_, rfl⟩
  rw [← e3] at s3
  have sh3 : w3.sh = { w.sh with dataQ := w.sh.dataQ ++ [x.2] } := by rw [e3]; exact sh2
  have l3 : w3.threads.length = w.threads.length + 1 := by rw [e3, List.length_append]; simp only [List.length_singleton]; omega
  have b3 : ∀ j, j < w.threads.length → w3.threads[j]? = w2.threads[j]? := fun j hj => by
    rw [e3]
    exact List.getElem?_append_left (by omega)
  have a3 : w3.threads[w.threads.length]? = some ⟨.api .readPD, [], .op .state fun s => if s ≠ .active then .op (.done (.fail .notEstablished)) fun _ => .ret none
      else .op .recvData fun r => match r with
        | none => .op (.done (.fail .notEstablished)) fun _ => .ret none
        | some pd => .op (.done (.pd pd)) fun _ => .ret none⟩ := by
    rw [e3]
    simp only
    rw [List.getElem?_append_right (by omega), show w.threads.length - w2.threads.length = 0 by omega]
    simp only [List.getElem?_cons_zero, Thread.fresh, Option.some.injEq, Thread.mk.injEq, true_and]
    refine congrArg (Prog.op .state) (funext fun s => ?_)
    cases s <;> first | rfl | exact congrArg (Prog.op .recvData) (funext fun r => by cases r <;> rfl)
  have t3 : w3.trace = w2.trace := by rw [e3]
  obtain ⟨w4, s4, sh4, a4, b4, l4, t4⟩ := move (E := E) (by rw [sh3]; exact hq.alive) a3 (.state (by rw [sh3]; exact hq.unlocked)) rfl
  rw [sh3] at sh4
  rw [sh3, show ({ w.sh with dataQ := w.sh.dataQ ++ [x.2] } : Shared).st = .active from hq.st, if_neg (by simp)] at a4
  obtain ⟨w5, s5, sh5, a5, b5, l5, t5⟩ := move (E := E) (by rw [sh4]; exact hq.alive) a4
    (.recvData (pd := x.2) (q := []) (by rw [sh4]; simp only [hq.queue, List.nil_append])) rfl
  have sh5 : w5.sh = w.sh := by
    rw [sh5, sh4, ← hq.queue]
  simp only at a5
  obtain ⟨w6, s6, sh6, a6, b6, l6, t6⟩ := move (E := E) (by rw [sh5]; exact hq.alive) a5 .done rfl
  rw [sh5] at sh6
  have keep : ∀ j, j ≠ x.1 → j < w.threads.length → w6.threads[j]? = w.threads[j]? := fun j hj hjl => by
    rw [b6 _ (by omega), b5 _ (by omega), b4 _ (by omega), b3 _ hjl, b2 _ hj, b1 _ hj]
  refine ⟨w6, ((((((Steps.refl w).tail s1).tail s2).tail s3).tail s4).tail s5).tail s6, ⟨by rw [sh6]; exact hq, h0, by rw [keep 2 (Ne.symm hn) h2]; exact ht⟩,
    ⟨(List.nodup_cons.mp hp.1).2, fun y hy => ?_⟩, ?_, ?_⟩
  · obtain ⟨hy2, m', p', q1, q2, q3⟩ := hp.2 y (List.mem_cons_of_mem _ hy)
    have hne : y.1 ≠ x.1 := fun e => (List.nodup_cons.mp hp.1).1 (List.mem_map.mpr ⟨y, hy, e⟩)
    exact ⟨hy2, m', p', q1, q2, by rw [keep _ hne (List.getElem?_eq_some_iff.mp q3).1]; exact q3⟩
  · rw [t6, t5, t4, t3, t2, t1]
    simp [receives, received?]
  · rw [t6, t5, t4, t3, t2, t1]
    simp [returns, returned?]

theorem hand_all {E : Env} (l : List (Nat × ProtocolDataPayload)) : ∀ {w : World}, At w → Pending E w l →
    ∃ w', Steps E w w' ∧ receives w'.trace = receives w.trace ∧ returns w'.trace = returns w.trace ++ (l.map (·.2)).map .pd := by
  induction l with
  | nil => exact fun {w} _ _ => ⟨w, .refl _, rfl, by simp⟩
  | cons x l ih =>
    intro w h hp
    obtain ⟨w1, s1, h1, hp1, r1, t1⟩ := hand h hp
    obtain ⟨w', s', r', t'⟩ := ih h1 hp1
    exact ⟨w', Steps.trans s1 s', by rw [r', r1], by rw [t', t1]; simp⟩

theorem perm_lift {α β : Type} {f : α → β} {qs : List β} {l : List β} (h : qs.Perm l) : ∀ {k : List α}, k.map f = l → ∃ k' : List α, k'.Perm k ∧ k'.map f = qs := by
  induction h with
  | nil => exact fun {k} hk => ⟨k, .refl _, hk⟩
  | @cons x l₁ l₂ _ ih =>
    intro k hk
    cases k with
    | nil => cases hk
    | cons a k =>
      rw [List.map_cons, List.cons.injEq] at hk
      obtain ⟨k', h1, h2⟩ := ih hk.2
      exact ⟨a :: k', h1.cons a, by rw [List.map_cons, h2, hk.1]⟩
  | swap x y l =>
    intro k hk
    match k with
    | [] => cases hk
    | [_] => simp at hk
    | a :: b :: k =>
      simp only [List.map_cons, List.cons.injEq] at hk
      exact ⟨b :: a :: k, .swap a b k, by simp only [List.map_cons, hk.1, hk.2.1, hk.2.2]⟩
  | trans _ _ ih1 ih2 =>
    intro k hk
    obtain ⟨k1, h1, h2⟩ := ih2 hk
    obtain ⟨k2, h3, h4⟩ := ih1 h2
    exact ⟨k2, h3.trans h1, h4⟩

theorem Pending.perm {E : Env} {w : World} {l l' : List (Nat × ProtocolDataPayload)} (h : Pending E w l) (hp : l'.Perm l) : Pending E w l' :=
  ⟨(hp.map _).nodup_iff.mpr h.1, fun x hx => h.2 x (hp.mem_iff.mp hx)⟩

/-- A connection that has been opened. -/
theorem opened (E : Env) : ∃ w, Reachable E w ∧ At w ∧ receives w.trace = [ackMsg] ∧ returns w.trace = [] := by
  have h : ∃ w, Reachable E w ∧ (w.sh.st, w.sh.locked, w.sh.estClosed, w.sh.ackClosed, w.sh.dataClosed, w.sh.dataQ, w.sh.inbox, w.sh.sctpClosed, w.sh.ctxDone, w.sh.handed, w.sh.crashed,
      w.threads[2]?.map (fun t => (t.gor, t.prog)), receives w.trace, returns w.trace) =
      (.active, false, false, false, false, [], [], false, false, true, false, some (.monitorLoop, .op (.read 1500) taken), [ackMsg], []) := by
    obtain ⟨mode, cfg, hb, ms⟩ := E
    refine reach_of (cs := opening mode) ?_
    cases mode <;> kernel_rfl
  obtain ⟨w, hw, he⟩ := h
  simp only [Prod.mk.injEq] at he
  obtain ⟨h1, h2, ha, hb, h3, h4, h5, h6, h7, h8, h9, h10, h11, h12⟩ := he
  obtain ⟨⟨g, hist, pr⟩, h13, h14⟩ := Option.map_eq_some_iff.mp h10
  simp only [Prod.mk.injEq] at h14
  obtain ⟨rfl, rfl⟩ := h14
  exact ⟨w, hw, ⟨⟨h1, h2, ha, hb, h3, h4, h5, h6, h7, h8, h9⟩, hist, h13⟩, h11, h12⟩

end Order

open Order in
/-- C51: nothing at all is guaranteed about the order: whatever the configuration and the mode, however many DATA messages arrive one after the other, their
payloads can be returned in every order. -/
theorem c51_any (E : Env) (ds : List (Bytes × ProtocolDataPayload)) (hd : ∀ d ∈ ds, carries d.1 d.2 ∧ d.1.length ≤ 1500)
    (order : List ProtocolDataPayload) (hp : order.Perm (ds.map (·.2))) :
    ∃ w, Reachable E w ∧ receives w.trace = ackMsg :: ds.map (·.1) ∧ returns w.trace = order.map .pd := by
  obtain ⟨w, hw, h, hr, ht⟩ := opened E
  obtain ⟨w1, l, s1, h1, p1, e1, r1, t1⟩ := collect (E := E) ds (l := []) h ⟨by simp, fun x hx => absurd hx List.not_mem_nil⟩ hd
  rw [List.nil_append] at p1
  obtain ⟨l', q1, q2⟩ := perm_lift hp e1
  obtain ⟨w2, s2, r2, t2⟩ := hand_all l' h1 (p1.perm q1)
  exact ⟨w2, Steps.trans (Steps.trans hw s1) s2, by rw [r2, r1, hr]; rfl, by rw [t2, t1, ht, q2]; rfl⟩

/-- Three DATA messages, in the opposite order. -/
example : ∃ w, Reachable E₀ w ∧ receives w.trace = ackMsg :: [dataMsg₁ 7, dataMsg₁ 8, dataMsg₁ 9] ∧
    returns w.trace = [.pd ⟨0, 0, 0, 0, 0, 0, [9]⟩, .pd ⟨0, 0, 0, 0, 0, 0, [8]⟩, .pd ⟨0, 0, 0, 0, 0, 0, [7]⟩] :=
  c51_any E₀ [(dataMsg₁ 7, ⟨0, 0, 0, 0, 0, 0, [7]⟩), (dataMsg₁ 8, ⟨0, 0, 0, 0, 0, 0, [8]⟩), (dataMsg₁ 9, ⟨0, 0, 0, 0, 0, 0, [9]⟩)]
    (by decide +kernel) [⟨0, 0, 0, 0, 0, 0, [9]⟩, ⟨0, 0, 0, 0, 0, 0, [8]⟩, ⟨0, 0, 0, 0, 0, 0, [7]⟩] (by decide +kernel)

end M3.Conn
