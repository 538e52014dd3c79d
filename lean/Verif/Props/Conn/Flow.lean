import Verif.Lemmas.Conn.Flow
import Verif.Lemmas.Conn.Sched
import Verif.Props.Conn.Calls
import Verif.Props.ParamKinds
import Verif.Spec.Flow

/- From received datagrams to answers and payloads: C50, C52. -/

set_option autoImplicit false
set_option linter.unusedSimpArgs false

namespace M3.Conn

open Spec

theorem tot_countP {σ : Type} (p : σ → Bool) (l : List σ) : tot (fun x => if p x then 1 else 0) l = l.countP p := by
  induction l with
  | nil => rfl
  | cons a l ih => rw [tot_cons, ih, List.countP_cons, Nat.add_comm]

/-! ### C52: acknowledgements -/

namespace Flow

/-- Own datagrams with property `p` count against received messages of kind `k`. -/
def answers (k : Kind) (p : Bytes → Bool) : Weights where
  raw b := if meaning b = some k then 1 else 0
  data _ := 0
  pd _ := 0
  got _ := 0
  ev x := if (match x.ev.op with | .write d _ => !ofUser x.gor && p d | _ => false) then 1 else 0

theorem answers_fair {k : Kind} {p : Bytes → Bool}
    (ha : ∀ b d, Answer b d → p d = true → meaning b = some k)
    (hm : ∀ d, octets d ∈ ([(0, 0), (3, 1), (4, 1), (3, 3)] : List (UInt8 × UInt8)) → p d = false) : (answers k p).Fair where
  data _ _ _ _ := Nat.zero_le _
  pd _ _ _ _ _ := Nat.zero_le _
  write i g s d n r h := by
    cases g with
    | packet b =>
      obtain ⟨rfl, h⟩ := h
      have := ha b d h
      simp only [answers, ofUser, Weights.tok, Bool.not_false, Bool.true_and]
      split
      · rename_i h'; rw [if_pos (this h')]; omega
      · omega
    | monitorLoop =>
      have : p d = false := hm d (by
        simp only [wrote, List.mem_cons, List.not_mem_nil, or_false] at h ⊢
        rcases h with h | h | h <;> simp [h])
      simp [answers, this]
    | beatLoop =>
      have : p d = false := hm d (by rw [show octets d = (3, 3) from h]; simp)
      simp [answers, this]
    | api c => simp [answers, ofUser]
    | _ => exact h.elim
  recv _ _ _ := Nat.zero_le _
  done _ _ _ _ _ := Nat.zero_le _
  other i g o r h _ _ := by
    cases o <;> simp [answers]
    exact (h _ _ rfl).elim

theorem answers_bound {k : Kind} {p : Bytes → Bool}
    (ha : ∀ b d, Answer b d → p d = true → meaning b = some k)
    (hm : ∀ d, octets d ∈ ([(0, 0), (3, 1), (4, 1), (3, 3)] : List (UInt8 × UInt8)) → p d = false)
    {E : Env} {w : World} (h : Reachable E w) :
    (ownSends w.trace).countP (fun x => p x.bytes) ≤ (receives w.trace).countP (fun b => meaning b = some k) := by
  have hb := bound (answers_fair ha hm) h
  rw [show (answers k p).raw = fun b => if decide (meaning b = some k) = true then 1 else 0 from by
    funext b; simp [answers], tot_countP] at hb
  refine Nat.le_trans (Nat.le_of_eq ?_) (Nat.le_trans (Nat.le_add_right _ _) hb)
  rw [show (answers k p).ev = fun x => if (match x.ev.op with | .write d _ => !ofUser x.gor && p d | _ => false) then 1 else 0
    from rfl, tot_countP, ownSends, sends, List.countP_filterMap, List.countP_filter]
  congr 1
  funext ⟨i, g, o, r⟩
  cases o <;> simp [sent?, Bool.and_comm]

end Flow

/-- C52: the acknowledgement messages the library has sent on its own are at most as many as the requests received, for each of
the four requests. -/
theorem c52_acks {E : Env} {w : World} (h : Reachable E w) {k : Kind} {o : UInt8 × UInt8}
    (hk : (k, o) ∈ ([(.aspUp, 3, 4), (.aspDown, 3, 5), (.aspActive, 4, 3), (.aspInactive, 4, 4)] : List (Kind × UInt8 × UInt8))) :
    (ownSends w.trace).countP (fun x => octets x.bytes = o) ≤ (receives w.trace).countP (fun b => meaning b = some k) := by
  refine Flow.answers_bound (p := fun d => octets d = o) ?_ ?_ h
  · intro b d ha hp
    have hp : octets d = o := by simpa using hp
    simp only [List.mem_cons, Prod.mk.injEq, List.not_mem_nil, or_false] at hk
    rcases hk with ⟨rfl, rfl⟩ | ⟨rfl, rfl⟩ | ⟨rfl, rfl⟩ | ⟨rfl, rfl⟩ <;>
      rcases ha with ⟨h1, h2⟩ | ⟨h1, h2⟩ | ⟨h1, h2⟩ | ⟨h1, h2⟩ | ⟨h1, h2⟩ <;>
      first | exact h1 | (rw [hp] at h2; simp at h2)
  · intro d hd
    simp only [List.mem_cons, Prod.mk.injEq, List.not_mem_nil, or_false] at hk hd
    rcases hk with ⟨rfl, rfl⟩ | ⟨rfl, rfl⟩ | ⟨rfl, rfl⟩ | ⟨rfl, rfl⟩ <;>
      rcases hd with hd | hd | hd | hd <;> simp [hd]

/-- C52: the same for heartbeats. The acknowledgement of a heartbeat has type 6 and the class octet that was received. -/
theorem c52_heartbeat {E : Env} {w : World} (h : Reachable E w) :
    (ownSends w.trace).countP (fun x => (octets x.bytes).2 = 6) ≤
      (receives w.trace).countP (fun b => meaning b = some .heartbeat) := by
  refine Flow.answers_bound (p := fun d => (octets d).2 = 6) ?_ ?_ h
  · intro b d ha hp
    have hp : (octets d).2 = 6 := by simpa using hp
    rcases ha with ⟨h1, h2⟩ | ⟨h1, h2⟩ | ⟨h1, h2⟩ | ⟨h1, h2⟩ | ⟨h1, h2⟩ <;>
      first | exact h1 | (rw [h2] at hp; simp at hp)
  · intro d hd
    simp only [List.mem_cons, List.not_mem_nil, or_false] at hd
    rcases hd with hd | hd | hd | hd <;> simp [hd]

/-- For `c52_acks`: A server that receives an ASP Up, and a heartbeat while it is not active, acknowledges the former only. -/
example : ∃ w, Reachable { E₀ with mode := .server } w ∧ (receives w.trace, (ownSends w.trace).map Sent.bytes) =
    ([message 1 3 1 [], message 1 3 3 [tlv 9 [7]]], [message 1 3 4 [], message 1 0 0 [tlv 12 (be32 6), tlv 18 (be32 1)]]) :=
  reach_of (cs := boot .server ++ [.deliver (message 1 3 1 []), .deliver (message 1 3 3 [tlv 9 [7]])] ++ go 2 2 ++ [.loop 2] ++
    go 4 5 ++ [.sync 4 2] ++ go 2 6 ++ [.loop 2] ++ go 5 2 ++ [.sync 5 2] ++ go 2 2) (by kernel_rfl)

/-! ### C50: payloads -/

theorem valueOf_eq (pd : ProtocolDataPayload) : valueOf pd = pd.encode := by
  simp only [ProtocolDataPayload.encode, u32bytes_spec, valueOf, protocolData, UInt8.ofNat_toNat]

/-- A payload is determined by its value. -/
theorem valueOf_inj {a b : ProtocolDataPayload} (h : valueOf a = valueOf b) : a = b := by
  rw [valueOf_eq, valueOf_eq] at h
  have := ProtocolDataPayload.parse_encode a
  rw [h, ProtocolDataPayload.parse_encode b] at this
  cases this; rfl

theorem payloadOf_iff {p : Param} (hp : p.tag = 0x210) {pd : ProtocolDataPayload} :
    payloadOf p = some pd ↔ p.data = valueOf pd := by
  have h : p.protocolData = ProtocolDataPayload.parse p.data := by
    unfold Param.protocolData
    rw [if_neg (by simp [hp, Tag.protocolData])]
  rw [payloadOf, h, valueOf_eq]
  rcases c13_parse p.data with ⟨-, he⟩ | ⟨-, q, h1, h2⟩
  · rw [he]
    simp only [reduceCtorEq, false_iff]
    intro hd
    rw [hd, ProtocolDataPayload.parse_encode] at he
    cases he
  · rw [h1]
    simp only [Option.some.injEq]
    constructor
    · rintro rfl; exact h2.symm
    · intro hd
      rw [hd, ProtocolDataPayload.parse_encode] at h1
      cases h1; rfl

/-- The Protocol Data parameter of a parsed message has the right tag. -/
theorem parsed_pd {b : Bytes} {m : Msg.Data} (hp : M3UA.parse b = .ok (.data m)) {p : Param} (h : m.protocolData = some p) :
    p.tag = 0x210 :=
  (M3UA.parse_field hp rfl (n := .protocolData) (by decide) (p := p) (by rw [M3UA.field]; exact h)).2


theorem payloadOf_value {p : Param} {pd : ProtocolDataPayload} (h : payloadOf p = some pd) : p.data = valueOf pd := by
  by_cases hp : p.tag = 0x210
  · exact (payloadOf_iff hp).mp h
  · have : p.protocolData = .err .paramInvalidType := by
      unfold Param.protocolData
      rw [if_pos (by simpa [Tag.protocolData] using hp)]
    rw [payloadOf, this] at h
    cases h

theorem carries_iff {b : Bytes} {m : Msg.Data} (hm : meaning b = some .data) (hp : M3UA.parse b = .ok (.data m))
    (pd : ProtocolDataPayload) : carries b pd = true ↔ m.protocolData.map Param.data = some (valueOf pd) := by
  have hv : b.getD 0 0 = 1 := by
    rw [meaning, hp] at hm
    simp only at hm
    split at hm
    · assumption
    · cases hm
  simp only [carries, hp, hv, true_and, decide_eq_true_iff]

open Classical in
/-- Payloads in `P` count, at each stage from being received to being taken from the queue. -/
noncomputable def Flow.payloads (P : ProtocolDataPayload → Prop) : Flow.Weights where
  raw b := if ∃ pd, carries b pd ∧ P pd then 1 else 0
  data m := if ∃ pd, m.protocolData.map Param.data = some (valueOf pd) ∧ P pd then 1 else 0
  pd pd := if P pd then 1 else 0
  got _ := 0
  ev x := match x.ev with
    | ⟨.recvData, some pd⟩ => if P pd then 1 else 0
    | _ => 0

theorem ite_le {p q : Prop} [Decidable p] [Decidable q] (h : p → q) : (if p then 1 else 0) ≤ (if q then 1 else 0) := by
  by_cases hp : p
  · simp [hp, h hp]
  · simp [hp]

open Classical in
theorem Flow.payloads_fair (P : ProtocolDataPayload → Prop) : (Flow.payloads P).Fair where
  data b m hm hp := ite_le fun ⟨pd, h1, h2⟩ => ⟨pd, (carries_iff hm hp pd).mpr h1, h2⟩
  pd m p pd h1 h2 := ite_le fun h => ⟨pd, by rw [h1, Option.map_some, payloadOf_value h2], h⟩
  write _ _ _ _ _ _ _ := Nat.zero_le _
  recv _ _ pd := Nat.le_refl _
  done _ _ _ _ _ := Nat.zero_le _
  other i g o r _ _ h := by
    show (match (⟨o, r⟩ : Ev) with | ⟨.recvData, some pd⟩ => _ | _ => 0) = 0
    split
    · rename_i h'; exact (h _ h').elim
    · rfl

open Classical in
/-- C50: payloads in a set `P`: those taken from the queue and those still in it are together at most as many as the received
DATA messages that carry one. -/
theorem c50_taken {E : Env} {w : World} (h : Reachable E w) (P : ProtocolDataPayload → Prop) :
    (takes w.trace).countP (fun x => ∃ pd, x = some pd ∧ P pd) + w.sh.dataQ.countP (fun pd => P pd) ≤
      (receives w.trace).countP (fun raw => ∃ pd, carries raw pd ∧ P pd) := by
  have hb := Flow.bound (Flow.payloads_fair P) h
  have e1 : tot (Flow.payloads P).raw (receives w.trace) = (receives w.trace).countP (fun raw => ∃ pd, carries raw pd ∧ P pd) := by
    rw [← tot_countP]; simp [Flow.payloads]
  have e2 : tot (Flow.payloads P).pd w.sh.dataQ = w.sh.dataQ.countP (fun pd => P pd) := by
    rw [← tot_countP]; simp [Flow.payloads]
  have e3 : tot (Flow.payloads P).ev w.trace = (takes w.trace).countP (fun x => ∃ pd, x = some pd ∧ P pd) := by
    rw [takes, List.countP_filterMap, ← tot_countP]
    congr 1
    funext ⟨i, g, o, r⟩
    cases o with
    | recvData => cases r <;> simp [Flow.payloads, took?]
    | _ => rfl
  rw [e1, e2, e3] at hb
  exact hb

open Classical in
/-- Payloads in `P` count, until they are returned by `Read` or `ReadPD`. -/
noncomputable def Flow.results (P : ProtocolDataPayload → Prop) : Flow.Weights where
  raw b := if ∃ pd, carries b pd ∧ P pd then 1 else 0
  data m := if ∃ pd, m.protocolData.map Param.data = some (valueOf pd) ∧ P pd then 1 else 0
  pd pd := if P pd then 1 else 0
  got pd := if P pd then 1 else 0
  ev x := match x.ev with
    | ⟨.done res, _⟩ => if returnsOnly P res then 1 else 0
    | _ => 0

open Classical in
theorem Flow.results_fair (P : ProtocolDataPayload → Prop) : (Flow.results P).Fair where
  data b m hm hp := ite_le fun ⟨pd, h1, h2⟩ => ⟨pd, (carries_iff hm hp pd).mpr h1, h2⟩
  pd m p pd h1 h2 := ite_le fun h => ⟨pd, by rw [h1, Option.map_some, payloadOf_value h2], h⟩
  write _ _ _ _ _ _ _ := Nat.zero_le _
  recv _ _ pd := Nat.le_of_eq (Nat.zero_add _)
  done i g s res h := by
    show (if returnsOnly P res then 1 else 0) ≤ _
    split
    · rename_i hr
      obtain ⟨⟨pd, hy⟩, hr⟩ := hr
      have : ∃ pd, s = .got pd ∧ yields pd res := by
        rcases hy with rfl | ⟨n, rfl⟩ <;> exact h
      obtain ⟨pd, rfl, hy⟩ := this
      show 1 ≤ if P pd then 1 else 0
      rw [if_pos (hr pd hy)]; exact Nat.le_refl _
    · exact Nat.zero_le _
  other i g o r _ h _ := by
    show (match (⟨o, r⟩ : Ev) with | ⟨.done res, _⟩ => _ | _ => 0) = 0
    split
    · rename_i h'; cases h'; exact (h _ rfl).elim
    · rfl

open Classical in
/-- C50: the results of `Read` and `ReadPD` that can only be payloads in `P` are at most as many as the received DATA
messages that carry one. -/
theorem c50_returned {E : Env} {w : World} (h : Reachable E w) (P : ProtocolDataPayload → Prop) :
    (returns w.trace).countP (fun res => returnsOnly P res) ≤
      (receives w.trace).countP (fun raw => ∃ pd, carries raw pd ∧ P pd) := by
  have hb := Flow.bound (Flow.results_fair P) h
  have e1 : tot (Flow.results P).raw (receives w.trace) = (receives w.trace).countP (fun raw => ∃ pd, carries raw pd ∧ P pd) := by
    rw [← tot_countP]; simp [Flow.results]
  have e3 : tot (Flow.results P).ev w.trace = (returns w.trace).countP (fun res => returnsOnly P res) := by
    rw [returns, List.countP_filterMap, ← tot_countP]
    congr 1
    funext ⟨i, g, o, r⟩
    cases o with
    | done res => simp [Flow.results, returned?]
    | _ => rfl
  rw [e1, e3] at hb
  omega

/-- C50: in particular `ReadPD` returns a payload at most as often as it was received. -/
theorem c50_readPD {E : Env} {w : World} (h : Reachable E w) (pd : ProtocolDataPayload) :
    (returns w.trace).count (.pd pd) ≤ (receives w.trace).countP (fun raw => carries raw pd) := by
  have hb := c50_returned h (· = pd)
  have e1 : ∀ res, returnsOnly (· = pd) res ↔ res = .pd pd ∨ returnsOnly (· = pd) res := by
    intro res
    refine ⟨.inr, ?_⟩
    rintro (rfl | h)
    · exact ⟨⟨pd, .inl rfl⟩, fun q hq => by rcases hq with hq | ⟨n, hq⟩ <;> cases hq; rfl⟩
    · exact h
  have e2 : (returns w.trace).count (.pd pd) ≤ (returns w.trace).countP (fun res => @decide _ (Classical.propDecidable (returnsOnly (· = pd) res))) := by
    rw [List.count]
    refine List.countP_mono_left fun res _ hr => ?_
    have hr : res = .pd pd := by simpa using hr
    simpa using (e1 res).mpr (.inl hr)
  have e3 : (receives w.trace).countP (fun raw => @decide _ (Classical.propDecidable (∃ q, carries raw q ∧ q = pd))) ≤
      (receives w.trace).countP (fun raw => carries raw pd) := by
    refine List.countP_mono_left fun raw _ hr => ?_
    have hr : ∃ q, carries raw q ∧ q = pd := by simpa using hr
    obtain ⟨q, hq, rfl⟩ := hr
    exact hq
  exact Nat.le_trans e2 (Nat.le_trans hb e3)

/-- The DATA message with payload `[b]` and all other fields 0. -/
def dataMsg₁ (b : UInt8) : Bytes := message 1 1 1 [tlv 0x210 (protocolData 0 0 0 0 0 0 [b])]

/-- Two DATA messages with the payloads `[7]` and `[8]` are received while the connection is active; goroutines 6 and 8 are to
queue the payloads. -/
def twoData : List Choice :=
  [.deliver (dataMsg₁ 7), .deliver (dataMsg₁ 8)] ++ go 2 2 ++ [.loop 2] ++ go 5 3 ++ [.sync 5 2] ++ go 2 6 ++ [.loop 2] ++
    go 7 3 ++ [.sync 7 2] ++ go 2 4

/-- For `c50_taken` and the other theorems on C50: Three DATA messages have been received, two of them with the same payload, which is returned twice. -/
example : ∃ w, Reachable E₀ w ∧ (receives (w.trace.drop 21), returns w.trace) =
    ([dataMsg₁ 7, dataMsg₁ 8, dataMsg₁ 7], [.pd ⟨0, 0, 0, 0, 0, 0, [7]⟩, .data 1 [8], .pd ⟨0, 0, 0, 0, 0, 0, [7]⟩]) :=
  reach_of (cs := opening .client ++ twoData ++ [.deliver (dataMsg₁ 7)] ++ go 2 2 ++ [.loop 2] ++ go 9 2 ++ go 6 2 ++ go 8 2 ++
    go 10 2 ++ [.call .readPD, .call (.read 3), .call .readPD] ++ go 11 3 ++ go 12 3 ++ go 13 3) (by kernel_rfl)

/-! ### C51: order -/

/-- C51: whatever the configuration and the mode, the payloads of two DATA messages can be returned in the opposite order. -/
theorem c51_reordered (E : Env) : ∃ w a b, Reachable E w ∧ receives w.trace = [ackMsg, a, b] ∧
    ∃ p q, p ≠ q ∧ carries a p ∧ carries b q ∧ returns w.trace = [.pd q, .pd p] := by
  have h : ∃ w, Reachable E w ∧ (receives w.trace, returns w.trace) =
      ([ackMsg, dataMsg₁ 7, dataMsg₁ 8], [.pd ⟨0, 0, 0, 0, 0, 0, [8]⟩, .pd ⟨0, 0, 0, 0, 0, 0, [7]⟩]) := by
    obtain ⟨mode, cfg, hb, ms⟩ := E
    refine reach_of (cs := opening mode ++ twoData ++ go 8 2 ++ go 6 2 ++ [.call .readPD, .call .readPD] ++ go 9 3 ++ go 10 3) ?_
    cases mode <;> kernel_rfl
  obtain ⟨w, hw, he⟩ := h
  obtain ⟨h1, h2⟩ := Prod.mk.inj he
  exact ⟨w, _, _, hw, h1, _, _, by decide, by kernel_rfl, by kernel_rfl, h2⟩

end M3.Conn
