import Verif.Props.Conn.Flow
import Verif.Props.Conn.Reading
import Verif.Lemmas.Seq

/- From `Write` at one end to `Read` at the other: C43, C64, C66. -/

set_option autoImplicit false
set_option linter.unusedSimpArgs false

namespace M3.Spec

open M3.Conn

/-- An optional parameter has the given tag and fits its length field. -/
def IsParam (tag : Nat) (o : Option Param) : Prop := ∀ p, o = some p → p.tag.toNat = tag ∧ p.data.length ≤ maxValue

/-- The optional parameters of DATA messages, where configured, are what they should be: network appearance, routing contexts
and correlation id. -/
structure DataConfig (c : Config) : Prop where
  networkAppearance : IsParam 0x200 c.networkAppearance
  routingContexts : IsParam 6 c.routingContexts
  correlationID : IsParam 0x13 c.correlationID

/-- The payload that `Write(b)` is meant to transmit. -/
def payloadFor (c : Config) (b : List UInt8) : ProtocolDataPayload :=
  ⟨c.originatingPointCode, c.destinationPointCode, c.serviceIndicator, c.networkIndicator, c.messagePriority,
    c.signalingLinkSelection, b⟩

/-- Where the Protocol Data parameter starts in the datagram of `Write`. -/
def pdStart (c : Config) : Nat := 8 + (presentTlvs [tv c.networkAppearance, tv c.routingContexts]).flatten.length

/-- Where it ends, without padding: its header has 4 bytes, its fixed part 12. -/
def pdEnd (c : Config) (b : List UInt8) : Nat := pdStart c + 16 + b.length

end M3.Spec

namespace M3.Conn

open Spec

/-! ### Datagrams of `Write` -/

/-- The parameters of a DATA message of `Write`. -/
def paramsOf (c : Config) (b : Bytes) : List (Nat × Bytes) :=
  [tv c.networkAppearance, tv c.routingContexts, some (0x210, valueOf (payloadFor c b)), tv c.correlationID].filterMap id

theorem dataOf_eq (c : Config) (b : Bytes) : ∃ h : Bytes, h.length = 8 ∧ h.getD 0 0 = 1 ∧ h.getD 2 0 = 1 ∧ h.getD 3 0 = 1 ∧
    dataOf c b = h ++ tlvs (paramsOf c b) := by
  refine ⟨[1, 0, 1, 1] ++ be32 (8 + (tlvs (paramsOf c b)).length), rfl, rfl, rfl, rfl, ?_⟩
  · simp only [dataOf, dataWith, message, presentTlvs_flatten]
    rfl

theorem tv_mem {t : Nat} {o : Option Param} (h : IsParam t o) {q : Nat × Bytes} (hq : tv o = some q) :
    q.1 = t ∧ q.2.length ≤ maxValue := by
  cases o with
  | none => cases hq
  | some p =>
    simp only [tv, Option.map_some, Option.some.injEq] at hq
    subst hq
    exact h p rfl

theorem valueOf_length (pd : ProtocolDataPayload) : (valueOf pd).length = 12 + pd.data.length := by
  rw [valueOf_eq, ProtocolDataPayload.encode_length]

theorem paramsOf_mem {c : Config} (hc : DataConfig c) {b : Bytes} {q : Nat × Bytes} (hq : q ∈ paramsOf c b) :
    (q = (0x210, valueOf (payloadFor c b)) ∨ (q.1 ∈ [0x200, 6, 0x13] ∧ q.2.length ≤ maxValue)) := by
  simp only [paramsOf, List.mem_filterMap, List.mem_cons, List.not_mem_nil, or_false, id] at hq
  obtain ⟨o, ho, rfl⟩ := hq
  rcases ho with h | h | h | h
  · exact .inr ⟨by rw [(tv_mem hc.networkAppearance h.symm).1]; simp, (tv_mem hc.networkAppearance h.symm).2⟩
  · exact .inr ⟨by rw [(tv_mem hc.routingContexts h.symm).1]; simp, (tv_mem hc.routingContexts h.symm).2⟩
  · exact .inl (Option.some.inj h)
  · exact .inr ⟨by rw [(tv_mem hc.correlationID h.symm).1]; simp, (tv_mem hc.correlationID h.symm).2⟩

theorem paramsOf_fits {c : Config} (hc : DataConfig c) {b : Bytes} (hb : 12 + b.length ≤ maxValue) : Fits (paramsOf c b) := by
  intro q hq
  rcases paramsOf_mem hc hq with rfl | ⟨h1, h2⟩
  · exact ⟨by show 0x210 < 65536; decide, by rw [valueOf_length]; exact hb⟩
  · refine ⟨?_, h2⟩
    simp only [List.mem_cons, List.not_mem_nil, or_false] at h1
    omega

/-- The Protocol Data parameter is the only one with its tag, and this is its position. -/
theorem paramsOf_split {c : Config} (hc : DataConfig c) (b : Bytes) : ∃ l₁ l₂,
    paramsOf c b = l₁ ++ (0x210, valueOf (payloadFor c b)) :: l₂ ∧ 8 + (tlvs l₁).length = pdStart c ∧
    (∀ q ∈ l₁, q.1 ≠ 0x210) ∧ ∀ q ∈ l₂, q.1 ≠ 0x210 := by
  refine ⟨[tv c.networkAppearance, tv c.routingContexts].filterMap id, [tv c.correlationID].filterMap id, ?_, ?_, ?_, ?_⟩
  · rw [show paramsOf c b = ([tv c.networkAppearance, tv c.routingContexts] ++ some (0x210, valueOf (payloadFor c b)) ::
      [tv c.correlationID]).filterMap id from rfl, List.filterMap_append]
    rfl
  · rw [pdStart, presentTlvs_flatten]
  · intro q hq
    simp only [List.mem_filterMap, List.mem_cons, List.not_mem_nil, or_false, id] at hq
    obtain ⟨o, ho, rfl⟩ := hq
    rcases ho with h | h
    · rw [(tv_mem hc.networkAppearance h.symm).1]; decide
    · rw [(tv_mem hc.routingContexts h.symm).1]; decide
  · intro q hq
    simp only [List.mem_filterMap, List.mem_cons, List.not_mem_nil, or_false, id] at hq
    obtain ⟨o, rfl, h⟩ := hq
    rw [(tv_mem hc.correlationID h).1]; decide

theorem lastValue_mem {n : PName} {qs : List (Nat × Bytes)} {v : Bytes} (h : lastValue n qs = some v) : (n.tag, v) ∈ qs := by
  simp only [lastValue, Option.map_eq_some_iff] at h
  obtain ⟨q, hq, rfl⟩ := h
  obtain ⟨h1, h2⟩ := List.mem_filter.mp (List.mem_of_getLast? hq)
  rw [← (by simpa using h2 : q.1 = n.tag)]
  exact h1

/-- The first bytes of a datagram of `Write` as a message. -/
theorem data_parse {c : Config} {b : Bytes} (hc : DataConfig c) (n : Nat) {qs : List (Nat × Bytes)}
    (hq : ParamSeq (((dataOf c b).take (8 + n)).drop 8) qs) (hs : qs <+: paramsOf c b) :
    ∃ m, M3UA.parse ((dataOf c b).take (8 + n)) = .ok (.data m) ∧ meaning ((dataOf c b).take (8 + n)) = some .data ∧
      m.protocolData.map Param.data = lastValue .protocolData qs := by
  obtain ⟨hd, e1, e2, e3, e4, e5⟩ := dataOf_eq c b
  have e : (dataOf c b).take (8 + n) = hd ++ (tlvs (paramsOf c b)).take n := by
    rw [e5, ← e1, List.take_length_add_append]
  have g : ∀ i, i < 8 → (hd ++ (tlvs (paramsOf c b)).take n).getD i 0 = hd.getD i 0 := by
    intro i hi
    rw [List.getD_eq_getElem?_getD, List.getElem?_append_left (by omega), List.getD_eq_getElem?_getD]
  rw [e] at hq ⊢
  rcases c24_parse _ (by rw [List.length_append]; omega) .data (by rw [g 2 (by omega), g 3 (by omega), e3, e4]; rfl) _ hq with
    ⟨_, m, hp, hk, _, hf⟩ | ⟨⟨q, hq, hne⟩, _⟩
  · cases m <;> simp only [M3UA.kind, Option.some.injEq, reduceCtorEq] at hk
    rename_i m _
    refine ⟨m, hp, ?_, ?_⟩
    · rw [meaning, hp]
      simp only
      rw [g 0 (by omega), if_pos e2]; rfl
    · have := hf .protocolData (by decide)
      cases hl : lastValue .protocolData qs with
      | none =>
        rw [hl] at this
        have this : m.protocolData = none := this
        rw [this]; rfl
      | some v =>
        rw [hl] at this
        obtain ⟨p, h1, -, h2, -⟩ := this
        have h1 : m.protocolData = some p := h1
        rw [h1, Option.map_some, h2]
  · exfalso
    have := hs.subset hq
    rcases paramsOf_mem hc this with rfl | ⟨h1, -⟩
    · exact hne .protocolData (by decide) rfl
    · simp only [List.mem_cons, List.not_mem_nil, or_false] at h1
      rcases h1 with h1 | h1 | h1
      · exact hne .networkAppearance (by decide) h1
      · exact hne .routingContext (by decide) h1
      · exact hne .correlationID (by decide) h1

/-! ### C43 -/

/-- C43: the datagram of `Write(b)` is a DATA message that carries `b` and the point codes, service indicator, network indicator,
priority and SLS of the sender's configuration. -/
theorem c43_understood {c : Config} (hc : DataConfig c) {b : Bytes} (hb : 12 + b.length ≤ maxValue) :
    meaning (dataOf c b) = some .data ∧ carries (dataOf c b) (payloadFor c b) := by
  have hd := dataOf_eq c b
  obtain ⟨hd, e1, -, -, -, e5⟩ := hd
  have e : (dataOf c b).take (8 + (tlvs (paramsOf c b)).length) = dataOf c b := by
    rw [List.take_of_length_le]
    rw [e5, List.length_append, e1]; exact Nat.le_refl _
  obtain ⟨m, h1, h2, h3⟩ := data_parse hc (tlvs (paramsOf c b)).length (qs := paramsOf c b) (by
    rw [e, e5, List.drop_left' e1]
    exact seq_tlvs (paramsOf_fits hc hb)) (List.prefix_refl _)
  rw [e] at h1 h2
  refine ⟨h2, (carries_iff h2 h1 _).mpr ?_⟩
  rw [h3]
  obtain ⟨l₁, l₂, e6, -, n1, n2⟩ := paramsOf_split hc b
  rw [lastValue, e6, List.filter_append, List.filter_cons_of_pos (by simp [PName.tag])]
  rw [List.filter_eq_nil_iff.mpr (by intro q hq; have := n1 q hq; simp [PName.tag, this]),
    List.filter_eq_nil_iff.mpr (by intro q hq; have := n2 q hq; simp [PName.tag, this])]
  rfl

/-- C43: a datagram carries at most one payload. -/
theorem c43_unique {raw : Bytes} {p q : ProtocolDataPayload} (hp : carries raw p) (hq : carries raw q) : p = q := by
  unfold carries at hp hq
  split at hp
  · rename_i m hm
    rw [hm] at hq
    simp only [decide_eq_true_iff] at hp hq
    exact valueOf_inj (Option.some.inj (hp.2.symm.trans hq.2))
  · cases hp

/-- What carries a payload is a DATA message. -/
theorem carries_data {raw : Bytes} {pd : ProtocolDataPayload} (h : carries raw pd) :
    ∃ m p, M3UA.parse raw = .ok (.data m) ∧ meaning raw = some .data ∧ m.version = 1 ∧ m.protocolData = some p ∧ payloadOf p = some pd := by
  unfold carries at h
  split at h
  · rename_i m hm
    simp only [decide_eq_true_iff] at h
    obtain ⟨h1, h2⟩ := h
    obtain ⟨p, h2, h3⟩ := Option.map_eq_some_iff.mp h2
    refine ⟨m, p, hm, ?_, ?_, h2, (payloadOf_iff (parsed_pd hm h2)).mpr h3⟩
    · rw [meaning, hm]; simp only; rw [if_pos h1]; rfl
    · rw [← h1]; exact ((M3UA.parse_octets hm).1).symm
  · cases h

/-- C43: what the handler of such a message has done: unless the context is done, it starts a goroutine for the message, then
reports the state. -/
theorem c43_handed {E : Env} {w : World} (h : Reachable E w) {i : Nat} {t : Thread} (ht : w.threads[i]? = some t)
    {raw : Bytes} (hc : t.gor = .packet raw) {m : Msg.Data} (hp : M3UA.parse raw = .ok (.data m)) (hv : raw.getD 0 0 = 1) :
    (∃ s, (w.of i).map Rec.ev <+: [⟨.ctxDone, false⟩, ⟨.spawn (.data m), ()⟩, ⟨.state, s⟩, ⟨.sendState s, ()⟩]) ∨
      (w.of i).map Rec.ev = [⟨.ctxDone, true⟩] := by
  obtain ⟨h1, h2⟩ := Follows.once h ht hc rfl
  have h3 : (w.of i).map Rec.ev = t.hist := by rw [h2, List.map_map]; exact List.map_id _
  rw [h3]
  rw [body, packet_eq] at h1
  simp only [hp] at h1
  have hv : m.version = 1 := by rw [← hv]; exact ((M3UA.parse_octets hp).1).symm
  have h1 : Path (.op .ctxDone _) t.hist t.prog := h1
  rcases Path.op_iff.mp h1 with ⟨h1, -⟩ | ⟨r, h', h1, h4⟩
  · rw [h1]; exact .inl ⟨.down, List.nil_prefix⟩
  rw [h1]
  cases r with
  | true => 
    have h4 : Path (.ret none) h' t.prog := h4
    rw [(Path.ret_iff.mp h4).1]; exact .inr rfl
  | false =>
    left
    simp only [M3UA.version, hv] at h4
    have h4 : Path (.op (.spawn (.data m)) _) h' t.prog := h4
    rcases Path.op_iff.mp h4 with ⟨h4, -⟩ | ⟨_, h₂, e₂, h5⟩
    · rw [h4]; exact ⟨.down, _, rfl⟩
    have h5 : Path (.op .state _) h₂ t.prog := h5
    rcases Path.op_iff.mp h5 with ⟨h5, -⟩ | ⟨s, h₃, e₃, h6⟩
    · rw [e₂, h5]; exact ⟨.down, _, rfl⟩
    refine ⟨s, ?_⟩
    have h6 : Path (.op (.sendState s) _) h₃ t.prog := h6
    rw [e₂, e₃]
    rcases Path.op_iff.mp h6 with ⟨h6, -⟩ | ⟨_, h₄, e₄, h7⟩
    · rw [h6]; exact ⟨_, rfl⟩
    have h7 : Path (.ret none) h₄ t.prog := h7
    rw [e₄, (Path.ret_iff.mp h7).1]; exact List.prefix_refl _

/-- C43: what that goroutine has done, if the message carries `pd`: it looks at the state; if it is AspActive it queues `pd`,
otherwise it reports the message as unexpected. If it is finished it has done so. -/
theorem c43_queued {E : Env} {w : World} (h : Reachable E w) {i : Nat} {t : Thread} (ht : w.threads[i]? = some t)
    {m : Msg.Data} (hc : t.gor = .data m) {raw : Bytes} (hp : M3UA.parse raw = .ok (.data m)) {pd : ProtocolDataPayload}
    (hr : carries raw pd) :
    ∃ s, let all : List Ev := [⟨.state, s⟩, if s = .active then ⟨.sendData pd, ()⟩ else ⟨.sendErr (.unexpectedMessage (.data m)), ()⟩]
      (w.of i).map Rec.ev <+: all ∧ ((∃ r, t.prog = .ret r) → (w.of i).map Rec.ev = all) := by
  obtain ⟨h1, h2⟩ := Follows.once h ht hc rfl
  have h3 : (w.of i).map Rec.ev = t.hist := by rw [h2, List.map_map]; exact List.map_id _
  rw [h3]
  obtain ⟨m', p, hp', -, -, h5, h6⟩ := carries_data hr
  rw [hp] at hp'
  cases hp'
  rw [body, handleData_eq] at h1
  simp only [h5, h6] at h1
  have h1 : Path (.op .state _) t.hist t.prog := h1
  rcases Path.op_iff.mp h1 with ⟨h1, h4⟩ | ⟨s, h', h1, h4⟩
  · rw [h1]; exact ⟨.down, List.nil_prefix, fun ⟨r, hr⟩ => by rw [hr] at h4; cases h4⟩
  rw [h1]
  refine ⟨s, ?_⟩
  by_cases hs : s = .active
  · subst hs
    have h4 : Path (.op (.sendData pd) _) h' t.prog := h4
    rcases Path.op_iff.mp h4 with ⟨h4, h7⟩ | ⟨_, h'', rfl, h8⟩
    · rw [h4]; exact ⟨⟨_, rfl⟩, fun ⟨r, hr⟩ => by rw [hr] at h7; cases h7⟩
    · have h8 : Path (.ret none) h'' t.prog := h8
      rw [(Path.ret_iff.mp h8).1]
      exact ⟨List.prefix_refl _, fun _ => rfl⟩
  · simp only [ne_eq, hs, not_false_eq_true, if_true] at h4
    have h4 : Path (.op (.sendErr (.unexpectedMessage (.data m))) _) h' t.prog := h4
    rcases Path.op_iff.mp h4 with ⟨h4, h7⟩ | ⟨_, h'', rfl, h8⟩
    · rw [h4, if_neg hs]; exact ⟨⟨_, rfl⟩, fun ⟨r, hr⟩ => by rw [hr] at h7; cases h7⟩
    · have h8 : Path (.ret none) h'' t.prog := h8
      rw [(Path.ret_iff.mp h8).1, if_neg hs]
      exact ⟨List.prefix_refl _, fun _ => rfl⟩

/-- For the theorems on C43: the datagram of `Write([8, 9])` of one end, received by the other end, is returned by `ReadPD`. -/
example : DataConfig E₀.cfg ∧ ∃ w, Reachable { E₀ with mode := .server } w ∧
    (receives (w.trace.drop 17), (w.of 6).map (fun x => decide (x.ev.op = .sendData (payloadFor E₀.cfg [8, 9]))), returns w.trace) =
    ([dataOf E₀.cfg [8, 9]], [false, true], [.pd (payloadFor E₀.cfg [8, 9])]) :=
  ⟨⟨nofun, nofun, nofun⟩, reach_of (cs := opening .server ++ [.deliver (dataOf E₀.cfg [8, 9])] ++ go 2 2 ++ [.loop 2] ++ go 5 2 ++
    go 6 2 ++ [.call .readPD] ++ go 7 3) (by kernel_rfl)⟩

/-! ### C66: the queue -/

theorem takes_one (x : Rec) : takes [x] = (took? x.ev).toList := by
  cases h : took? x.ev <;> simp [takes, h]

theorem queues_one (x : Rec) : queues [x] = (queued? x.ev).toList := by
  cases h : queued? x.ev <;> simp [queues, h]

/-- C66: payloads are taken in the order in which they were queued, none is lost or added on the way: those taken so
far and those still in the queue are those put into the queue, except those dropped because the context is done. -/
theorem c66_fifo {E : Env} {w : World} (h : Reachable E w) :
    ((takes w.trace).filterMap id ++ w.sh.dataQ).Sublist (queues w.trace) ∧
    (w.sh.ctxDone = false → (takes w.trace).filterMap id ++ w.sh.dataQ = queues w.trace) := by
  have hq : ∀ a b, queues (a ++ b) = queues a ++ queues b := by simp [queues]
  have hk : ∀ a b, takes (a ++ b) = takes a ++ takes b := by simp [takes]
  induction h with
  | refl => exact ⟨List.Sublist.refl _, fun _ => rfl⟩
  | tail _ hs ih =>
    cases hs with
    | env _ he =>
      cases he with
      | cancel => exact ⟨ih.1, nofun⟩
      | _ => exact ih
    | call _ _ _ => exact ih
    | loop _ _ _ _ _ _ => exact ih
    | crash _ _ _ _ _ _ _ _ => exact ih
    | run i g hist o k r _ _ hx =>
      simp only [hq, hk, List.filterMap_append]
      cases hx with
      | sendData h1 h2 =>
        simp only [takes_one, queues_one, took?, queued?, List.filterMap_nil, List.append_nil, Option.toList, ← List.append_assoc]
        exact ⟨ih.1.append (.refl _), fun h => by rw [ih.2 h]⟩
      | sendDataCtx h1 =>
        simp only [takes_one, queues_one, took?, queued?, List.filterMap_nil, List.append_nil, Option.toList]
        exact ⟨ih.1.trans (List.sublist_append_left _ _), fun h => by rw [h] at h1; cases h1⟩
      | recvData h1 =>
        rw [h1] at ih
        simpa [takes, queues, took?, queued?] using ih
      | _ => simpa [takes, queues, took?, queued?] using ih
    | sync i j gi gj hi hj oi oj ki kj ri rj _ _ _ _ hx =>
      simp only [hq, hk, List.filterMap_append]
      cases hx <;> simpa [takes, queues, took?, queued?] using ih

/-- Two payloads have been queued, one of them has been taken. -/
example : ∃ w, Reachable E₀ w ∧ (w.sh.ctxDone, queues w.trace, takes w.trace, w.sh.dataQ) =
    (false, [⟨0, 0, 0, 0, 0, 0, [8]⟩, ⟨0, 0, 0, 0, 0, 0, [7]⟩], [some ⟨0, 0, 0, 0, 0, 0, [8]⟩], [⟨0, 0, 0, 0, 0, 0, [7]⟩]) :=
  reach_of (cs := opening .client ++ twoData ++ go 8 2 ++ go 6 2 ++ [.call .readPD] ++ go 9 3) (by kernel_rfl)

/-! ### C64: long messages -/

theorem split_unique {α : Type} {P : α → Prop} {l₁ l₂ a₁ a₂ : List α} {x y : α} (_ : P x) (hy : P y) (h1 : ∀ q ∈ l₁, ¬ P q)
    (h2 : ∀ q ∈ l₂, ¬ P q) (h : l₁ ++ x :: l₂ = a₁ ++ y :: a₂) : l₁ = a₁ ∧ x = y ∧ l₂ = a₂ := by
  rcases List.append_eq_append_iff.mp h with ⟨c, rfl, h'⟩ | ⟨c, rfl, h'⟩
  · cases c with
    | nil => simp only [List.nil_append, List.cons.injEq] at h'; simp [h']
    | cons d c =>
      simp only [List.cons_append, List.cons.injEq] at h'
      exact absurd hy (h2 y (by rw [h'.2]; simp))
  · cases c with
    | nil => simp only [List.nil_append, List.cons.injEq] at h'; simp [h']
    | cons d c =>
      simp only [List.cons_append, List.cons.injEq] at h'
      exact absurd hy (h1 y (by rw [h'.1]; simp))

/-- C64: no received datagram is longer than 1500 bytes. -/
theorem c64_at_most {E : Env} {w : World} (h : Reachable E w) {raw : Bytes} (hr : raw ∈ receives w.trace) : raw.length ≤ 1500 := by
  obtain ⟨⟨i, g, o, r⟩, hx, hr⟩ := List.mem_filterMap.mp hr
  obtain ⟨h1, h2⟩ := (Facts.reach h).2.2 _ hx
  cases o <;> simp only [received?, reduceCtorEq] at hr
  rename_i n
  subst hr
  have h1 : n = 1500 := h1
  have h2 : raw.length ≤ n := h2
  omega

/-- The beginning of a datagram of `Write`, as far as it is read. -/
theorem dataOf_take (c : Config) (b : Bytes) : ((dataOf c b).take 1500).drop 8 = (tlvs (paramsOf c b)).take 1492 := by
  obtain ⟨hd, e1, -, -, -, e5⟩ := dataOf_eq c b
  rw [e5, show 1500 = hd.length + 1492 by omega, List.take_length_add_append, List.drop_left' e1]

/-- C64: the first 1500 bytes of a datagram of `Write` whose Protocol Data parameter ends after byte 1500 carry nothing. -/
theorem c64_lost {c : Config} (hc : DataConfig c) {b : Bytes} (hb : 12 + b.length ≤ maxValue) (he : 1500 < pdEnd c b)
    (pd : ProtocolDataPayload) : carries ((dataOf c b).take 1500) pd = false := by
  by_cases hx : carries ((dataOf c b).take 1500) pd = true
  · exfalso
    have e' := dataOf_take c b
    obtain ⟨m, p, h1, h2, -, h3, h4⟩ := carries_data hx
    have hseq : ∃ qs, ParamSeq (((dataOf c b).take 1500).drop 8) qs := by
      by_cases hq : ∃ qs, ParamSeq (((dataOf c b).take 1500).drop 8) qs
      · exact hq
      · obtain ⟨e, he⟩ := c23_bad_body _ (fun qs h => hq ⟨qs, h⟩)
        rw [he] at h1; cases h1
    obtain ⟨qs, hseq⟩ := hseq
    have hs := seq_take (paramsOf_fits hc hb) (n := 1492) (by decide) (e' ▸ hseq)
    obtain ⟨m', h5, -, h6⟩ := data_parse hc 1492 hseq hs.1
    rw [h1] at h5
    cases h5
    rw [h3, Option.map_some] at h6
    have hm := lastValue_mem h6.symm
    obtain ⟨l₁, l₂, g1, g2, g3, g4⟩ := paramsOf_split hc b
    obtain ⟨a₁, a₂, rfl⟩ := List.append_of_mem hm
    have hfit := hs.2 a₁ _ a₂ rfl
    obtain ⟨r, hr⟩ := hs.1
    rw [g1, List.append_assoc, List.cons_append] at hr
    have hu := split_unique (P := fun q => q.1 = 0x210) (by simp) (by rfl) g3 g4 hr.symm
    obtain ⟨rfl, h7, -⟩ := hu
    have h7 := congrArg (List.length ∘ Prod.snd) h7
    simp only [Function.comp, valueOf_length] at h7
    have : (payloadFor c b).data = b := rfl
    rw [this] at h7
    unfold pdEnd at he
    simp only at hfit
    omega
  · simpa using hx

/-- C64: if the Protocol Data parameter moreover starts before byte 1500, these bytes are rejected by `messages.Parse`. -/
theorem c64_rejected {c : Config} (hc : DataConfig c) {b : Bytes} (hb : 12 + b.length ≤ maxValue) (hs : pdStart c < 1500)
    (he : 1500 < pdEnd c b) : ∃ e, M3UA.parse ((dataOf c b).take 1500) = .err e := by
  refine c23_bad_body _ fun qs hq => ?_
  have hlen := seq_length hq
  rw [dataOf_take] at hq hlen
  obtain ⟨h1, h2⟩ := seq_take (paramsOf_fits hc hb) (by decide) hq
  obtain ⟨l₁, l₂, g1, g2, g3, g4⟩ := paramsOf_split hc b
  rw [g1] at h1
  have hv : (valueOf (payloadFor c b)).length = 12 + b.length := valueOf_length _
  have htot : 1492 ≤ (tlvs (paramsOf c b)).length := by
    rw [g1, tlvs_append, tlvs_cons]
    simp only [List.length_append, tlv_length, hv]
    unfold pdEnd at he
    omega
  rw [List.length_take, Nat.min_eq_left htot] at hlen
  obtain ⟨x, hx⟩ := h1
  rcases List.append_eq_append_iff.mp hx with ⟨r, rfl, -⟩ | ⟨r, rfl, hr⟩
  · rw [tlvs_append, List.length_append] at g2
    omega
  · cases r with
    | nil => rw [List.append_nil] at hlen; omega
    | cons p r =>
      simp only [List.cons_append, List.cons.injEq] at hr
      have := h2 l₁ p r rfl
      rw [← hr.1] at this
      simp only [hv] at this
      unfold pdEnd at he
      omega

/-- C64: and a connection that has received them never receives anything again. -/
theorem c64_silent {c : Config} (hc : DataConfig c) {b : Bytes} (hb : 12 + b.length ≤ maxValue) (hs : pdStart c < 1500)
    (he : 1500 < pdEnd c b) {E : Env} {w w' : World} (h : Reachable E w) (hst : Steps E w w')
    (hx : (dataOf c b).take 1500 ∈ receives w.trace) : receives w'.trace = receives w.trace :=
  c49_unread h hst hx fun m hm => by
    obtain ⟨e, he⟩ := c64_rejected hc hb hs he
    rw [he] at hm; cases hm

/-- C64: if the Protocol Data parameter starts exactly at byte 1500, what remains is accepted as a DATA message without Protocol
Data (which crashes the process, C56). -/
theorem c64_without {c : Config} (hc : DataConfig c) {b : Bytes} (hb : 12 + b.length ≤ maxValue) (hs : pdStart c = 1500) :
    ∃ m, M3UA.parse ((dataOf c b).take 1500) = .ok (.data m) ∧ meaning ((dataOf c b).take 1500) = some .data ∧
      m.protocolData = none := by
  obtain ⟨l₁, l₂, g1, g2, g3, g4⟩ := paramsOf_split hc b
  have hfit := paramsOf_fits hc hb
  have e : (tlvs (paramsOf c b)).take 1492 = tlvs l₁ := by
    rw [g1, tlvs_append, List.take_left' (by omega)]
  obtain ⟨m, h1, h2, h3⟩ := data_parse hc 1492 (b := b) (qs := l₁) (by
    rw [show 8 + 1492 = 1500 from rfl, dataOf_take, e]
    exact seq_tlvs fun q hq => hfit q (by rw [g1]; exact List.mem_append_left _ hq)) (by rw [g1]; exact List.prefix_append _ _)
  refine ⟨m, h1, h2, ?_⟩
  have : lastValue .protocolData l₁ = none := by
    rw [lastValue, List.filter_eq_nil_iff.mpr (by intro q hq; have := g3 q hq; simp [PName.tag, this])]
    rfl
  rw [this] at h3
  simpa using h3

/-- For `c64_lost`, `c64_rejected` and `c64_silent`: a payload of 1477 bytes is the first that is too long without optional parameters. -/
example : DataConfig E₀.cfg ∧ pdStart E₀.cfg = 8 ∧ pdEnd E₀.cfg (List.replicate 1477 0) = 1501 ∧ 12 + 1477 ≤ maxValue :=
  ⟨⟨nofun, nofun, nofun⟩, rfl, by rw [pdEnd, List.length_replicate]; rfl, by decide⟩

/-- For `c64_at_most` and `c64_silent`: its datagram is received in part. -/
example : ∃ w, Reachable E₀ w ∧ receives (w.trace.drop 21) = [(dataOf E₀.cfg (List.replicate 1477 0)).take 1500] :=
  reach_of (cs := opening .client ++ [.deliver (dataOf E₀.cfg (List.replicate 1477 0))] ++ go 2 2) (by kernel_rfl)

/-- For `c64_without`: with 372 routing contexts the Protocol Data parameter starts at byte 1500. -/
example : let c := { E₀.cfg with routingContexts := some (Param.newRoutingContext (List.replicate 372 1)) }
    DataConfig c ∧ pdStart c = 1500 :=
  ⟨⟨nofun, fun p hp => by cases hp; exact ⟨rfl, by decide +kernel⟩, nofun⟩, by decide +kernel⟩

end M3.Conn
