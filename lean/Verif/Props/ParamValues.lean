import Verif.Props.Params
import Verif.Props.ParamKinds
import Verif.Props.Messages

/-! Properties C68-C70: what the accessors make of any value, in particular of one supplied by the peer. -/

set_option autoImplicit false

namespace M3.Spec

/-- The number a value denotes: big-endian if it has four bytes, otherwise zero. -/
def value32 (d : List UInt8) : Nat := if d.length = 4 then field32 d 0 else 0

/-- The 32-bit numbers a value consists of; none if its length is not a multiple of four. -/
def values32 (d : List UInt8) : List Nat :=
  if d.length % 4 = 0 then (List.range (d.length / 4)).map fun i => field32 d (4 * i) else []

/-- The parameters RFC 4666 allows inside a Routing Key (3.6.1). -/
def routingKeyMembers : List PName :=
  [.localRoutingKeyIdentifier, .routingContext, .trafficModeType, .destinationPointCode, .networkAppearance,
   .serviceIndicators, .originatingPointCodeList]

end M3.Spec

namespace M3

open Spec (be32 tlv pad PName maxValue value32 values32 field32 routingKeyMembers ParamSeq lastValue)

/-! ### C68: parameters of variable length -/

/-- C68: INFO String. -/
theorem c68_infoString (s : Bytes) (h : s.length ≤ maxValue) :
    ViaWire (Param.newInfoString s) (tlv PName.infoString.tag s) (fun q => q.infoString = .ok s) :=
  viaWire_of _ _ _ (Param.setLength_consistent _ h) rfl rfl

/-- C68: Heartbeat Data. -/
theorem c68_heartbeatData (s : Bytes) (h : s.length ≤ maxValue) :
    ViaWire (Param.newHeartbeatData s) (tlv PName.heartbeatData.tag s) (fun q => q.heartbeatData = .ok s) :=
  viaWire_of _ _ _ (Param.setLength_consistent _ h) rfl rfl

example : ViaWire (Param.newHeartbeatData [7]) [0, 9, 0, 5, 7, 0, 0, 0] (fun q => q.heartbeatData = .ok [7]) := c68_heartbeatData _ (by decide)

/-- C68: Diagnostic Information. -/
theorem c68_diagnosticInformation (s : Bytes) (h : s.length ≤ maxValue) :
    ViaWire (Param.newDiagnosticInformation s) (tlv PName.diagnosticInformation.tag s)
      (fun q => q.diagnosticInformation = .ok s) :=
  viaWire_of _ _ _ (Param.setLength_consistent _ h) rfl rfl

example : ViaWire (Param.newInfoString [0x68, 0x69, 0x21]) [0, 4, 0, 7, 0x68, 0x69, 0x21, 0]
    (fun q => q.infoString = .ok [0x68, 0x69, 0x21]) := c68_infoString _ (by decide)

/-! ### C69: any value -/

theorem Param.decode_value (p : Param) : ∃ v, p.decodeUint32Val = .ok v ∧ v.toNat = value32 p.data := by
  by_cases h : p.data.length = 4
  · obtain ⟨b0, b1, b2, b3, d, hd⟩ := Param.four_split p.data (by omega)
    refine ⟨_, by rw [decodeUint32Val, if_neg (by simpa using h), hd, getUint32], ?_⟩
    rw [get32_val, value32, if_pos h, hd]
    rfl
  · exact ⟨0, by simp [decodeUint32Val, h], by simp [value32, h]⟩

theorem field32_word (pre : Bytes) (u : UInt32) (post : Bytes) : field32 (pre ++ (u32bytes u ++ post)) pre.length = u.toNat := by
  have h : ∀ k, k < 4 → (pre ++ (u32bytes u ++ post)).getD (pre.length + k) 0 = (u32bytes u).getD k 0 := by
    intro k hk
    rw [List.getD_eq_getElem?_getD, List.getElem?_append_right (by omega), Nat.add_sub_cancel_left,
      List.getElem?_append_left (by simpa using hk), ← List.getD_eq_getElem?_getD]
  have h0 := h 0 (by omega)
  rw [Nat.add_zero] at h0
  rw [field32, h0, h 1 (by omega), h 2 (by omega), h 3 (by omega)]
  have := get32_val (u >>> 24).toUInt8 (u >>> 16).toUInt8 (u >>> 8).toUInt8 u.toUInt8
  show (u >>> 24).toUInt8.toNat * 256 ^ 3 + (u >>> 16).toUInt8.toNat * 256 ^ 2 + (u >>> 8).toUInt8.toNat * 256 + u.toUInt8.toNat = _
  rw [← this]
  have g := getUint32_u32bytes u []
  simp only [u32bytes, List.append_nil, getUint32, Res.ok.injEq] at g
  rw [g]

theorem values_words (ux : List UInt32) : values32 (ux.flatMap u32bytes) = ux.map UInt32.toNat := by
  have hl := Param.flatMap_u32bytes_length ux
  rw [values32, if_pos (by omega), hl, show 4 * ux.length / 4 = ux.length by omega]
  apply List.ext_getElem (by simp)
  intro i h1 h2
  simp only [List.getElem_map, List.getElem_range]
  have hi : i < ux.length := by simpa using h2
  have e : ux.flatMap u32bytes = (ux.take i).flatMap u32bytes ++ (u32bytes ux[i] ++ (ux.drop (i + 1)).flatMap u32bytes) := by
    rw [← List.flatMap_cons, ← List.flatMap_append, List.getElem_cons_drop, List.take_append_drop]
  have hp : ((ux.take i).flatMap u32bytes).length = 4 * i := by
    rw [Param.flatMap_u32bytes_length, List.length_take]; omega
  rw [e, ← hp, field32_word]

theorem Param.decode_values (p : Param) : ∃ vs, p.decodeMultiUint32Val = .ok vs ∧ vs.map UInt32.toNat = values32 p.data := by
  rcases Param.decodeMulti_cases p with ⟨h, h1⟩ | ⟨ux, hu, -, h1⟩
  · exact ⟨[], h1, by simp [values32, h]⟩
  · exact ⟨ux, h1, by rw [hu, values_words]⟩

/-- C69: accessors of a 32-bit value: whatever the value, they return the number it denotes, and zero if it has not four bytes. -/
theorem c69_uint32 (p : Param) :
    (p.tag.toNat = PName.aspIdentifier.tag → ∃ v, p.aspIdentifier = .ok v ∧ v.toNat = value32 p.data) ∧
    (p.tag.toNat = PName.trafficModeType.tag → ∃ v, p.trafficModeType = .ok v ∧ v.toNat = value32 p.data) ∧
    (p.tag.toNat = PName.networkAppearance.tag → ∃ v, p.networkAppearance = .ok v ∧ v.toNat = value32 p.data) ∧
    (p.tag.toNat = PName.correlationID.tag → ∃ v, p.correlationID = .ok v ∧ v.toNat = value32 p.data) ∧
    (p.tag.toNat = PName.errorCode.tag → ∃ v, p.errorCode = .ok v ∧ v.toNat = value32 p.data) ∧
    (p.tag.toNat = PName.status.tag → ∃ v, p.status = .ok v ∧ v.toNat = value32 p.data) ∧
    (p.tag.toNat = PName.localRoutingKeyIdentifier.tag →
      ∃ v, p.localRoutingKeyIdentifier = .ok v ∧ v.toNat = value32 p.data) ∧
    (p.tag.toNat = PName.registrationStatus.tag → ∃ v, p.registrationStatus = .ok v ∧ v.toNat = value32 p.data) ∧
    (p.tag.toNat = PName.deregistrationStatus.tag → ∃ v, p.deregistrationStatus = .ok v ∧ v.toNat = value32 p.data) ∧
    (p.tag.toNat = PName.userCause.tag → ∃ v, p.userCause = .ok v ∧ v.toNat = value32 p.data) := by
  obtain ⟨v, h1, h2⟩ := p.decode_value
  have key : ∀ (t : UInt16), p.tag.toNat = t.toNat → ¬ p.tag ≠ t := fun t h hn => hn (UInt16.toNat_inj.mp h)
  refine ⟨?_, ?_, ?_, ?_, ?_, ?_, ?_, ?_, ?_, ?_⟩
  · exact fun h => ⟨v, by rw [Param.aspIdentifier, if_neg (key Tag.aspIdentifier h), h1], h2⟩
  · exact fun h => ⟨v, by rw [Param.trafficModeType, if_neg (key Tag.trafficModeType h), h1], h2⟩
  · exact fun h => ⟨v, by rw [Param.networkAppearance, if_neg (key Tag.networkAppearance h), h1], h2⟩
  · exact fun h => ⟨v, by rw [Param.correlationID, if_neg (key Tag.correlationID h), h1], h2⟩
  · exact fun h => ⟨v, by rw [Param.errorCode, if_neg (key Tag.errorCode h), h1], h2⟩
  · exact fun h => ⟨v, by rw [Param.status, if_neg (key Tag.status h), h1], h2⟩
  · exact fun h => ⟨v, by rw [Param.localRoutingKeyIdentifier, if_neg (key Tag.localRoutingKeyIdentifier h), h1], h2⟩
  · exact fun h => ⟨v, by rw [Param.registrationStatus, if_neg (key Tag.registrationStatus h), h1], h2⟩
  · exact fun h => ⟨v, by rw [Param.deregistrationStatus, if_neg (key Tag.deregistrationStatus h), h1], h2⟩
  · exact fun h => ⟨v, by rw [Param.userCause, if_neg (key Tag.userCause h), h1], h2⟩

/-- C69: accessors of a part of a 32-bit value. -/
theorem c69_parts (p : Param) :
    (p.tag.toNat = PName.status.tag → ∃ v, p.statusType = .ok v ∧ v.toNat = value32 p.data / 65536) ∧
    (p.tag.toNat = PName.status.tag → ∃ v, p.statusInfo = .ok v ∧ v.toNat = value32 p.data % 65536) ∧
    (p.tag.toNat = PName.userCause.tag → ∃ v, p.unavailabilityCause = .ok v ∧ v.toNat = value32 p.data / 65536) ∧
    (p.tag.toNat = PName.userCause.tag → ∃ v, p.userIdentity = .ok v ∧ v.toNat = value32 p.data % 65536) ∧
    (p.tag.toNat = PName.destinationPointCode.tag →
      ∃ v, p.destinationPointCode = .ok v ∧ v.toNat = value32 p.data % 2 ^ 24) ∧
    (p.tag.toNat = PName.concernedDestination.tag →
      ∃ v, p.concernedDestination = .ok v ∧ v.toNat = value32 p.data % 2 ^ 24) ∧
    (p.tag.toNat = PName.congestionIndications.tag →
      ∃ v, p.congestionLevel = .ok v ∧ v.toNat = value32 p.data % 256) := by
  obtain ⟨v, h1, h2⟩ := p.decode_value
  have key : ∀ (t : UInt16), p.tag.toNat = t.toNat → ¬ p.tag ≠ t := fun t h hn => hn (UInt16.toNat_inj.mp h)
  have hv : v.toNat < 2 ^ 32 := v.toNat_lt
  have hi : (v >>> 16).toUInt16.toNat = value32 p.data / 65536 := by
    rw [← h2]; simp [Nat.shiftRight_eq_div_pow]; omega
  have lo : (v &&& 0xffff).toUInt16.toNat = value32 p.data % 65536 := by
    rw [← h2]; simp only [UInt32.toNat_toUInt16, UInt32.toNat_and]
    rw [show (65535 : UInt32).toNat = 2 ^ 16 - 1 by rfl, Nat.and_two_pow_sub_one_eq_mod]
    omega
  refine ⟨?_, ?_, ?_, ?_, ?_, ?_, ?_⟩
  · exact fun h => ⟨_, by rw [Param.statusType, if_neg (key Tag.status h), h1]; rfl, hi⟩
  · exact fun h => ⟨_, by rw [Param.statusInfo, if_neg (key Tag.status h), h1]; rfl, lo⟩
  · exact fun h => ⟨_, by rw [Param.unavailabilityCause, if_neg (key Tag.userCause h), h1]; rfl, hi⟩
  · exact fun h => ⟨_, by rw [Param.userIdentity, if_neg (key Tag.userCause h), h1]; rfl, lo⟩
  · refine fun h => ⟨_, by rw [Param.destinationPointCode, if_neg (key Tag.destinationPointCode h), h1]; rfl, ?_⟩
    rw [← h2, UInt32.toNat_and, show (0xffffff : UInt32).toNat = 2 ^ 24 - 1 by rfl, Nat.and_two_pow_sub_one_eq_mod]
  · refine fun h => ⟨_, by rw [Param.concernedDestination, if_neg (key Tag.concernedDestination h), h1]; rfl, ?_⟩
    rw [← h2, UInt32.toNat_and, show (0xffffff : UInt32).toNat = 2 ^ 24 - 1 by rfl, Nat.and_two_pow_sub_one_eq_mod]
  · refine fun h => ⟨_, by rw [Param.congestionLevel, if_neg (key Tag.congestionIndications h), h1]; rfl, ?_⟩
    rw [← h2, UInt32.toNat_and, show (0xff : UInt32).toNat = 2 ^ 8 - 1 by rfl, Nat.and_two_pow_sub_one_eq_mod]

/-- C69: accessors of a list of 32-bit values, and of plain bytes. -/
theorem c69_lists (p : Param) :
    (p.tag.toNat = PName.routingContext.tag → ∃ vs, p.routingContexts = .ok vs ∧ vs.map UInt32.toNat = values32 p.data) ∧
    (p.tag.toNat = PName.affectedPointCode.tag →
      ∃ vs, p.affectedPointCodes = .ok vs ∧ vs.map UInt32.toNat = values32 p.data) ∧
    (p.tag.toNat = PName.originatingPointCodeList.tag →
      ∃ vs, p.originatingPointCodeList = .ok vs ∧ vs.map UInt32.toNat = values32 p.data) ∧
    (p.tag.toNat = PName.serviceIndicators.tag → p.serviceIndicators = .ok p.data) ∧
    (p.tag.toNat = PName.infoString.tag → p.infoString = .ok p.data) ∧
    (p.tag.toNat = PName.heartbeatData.tag → p.heartbeatData = .ok p.data) ∧
    (p.tag.toNat = PName.diagnosticInformation.tag → p.diagnosticInformation = .ok p.data) := by
  obtain ⟨v, h1, h2⟩ := p.decode_values
  have key : ∀ (t : UInt16), p.tag.toNat = t.toNat → ¬ p.tag ≠ t := fun t h hn => hn (UInt16.toNat_inj.mp h)
  refine ⟨?_, ?_, ?_, ?_, ?_, ?_, ?_⟩
  · exact fun h => ⟨v, by rw [Param.routingContexts, if_neg (key Tag.routingContext h), h1], h2⟩
  · exact fun h => ⟨v, by rw [Param.affectedPointCodes, if_neg (key Tag.affectedPointCode h), h1], h2⟩
  · exact fun h => ⟨v, by rw [Param.originatingPointCodeList, if_neg (key Tag.originatingPointCodeList h), h1], h2⟩
  · exact fun h => by rw [Param.serviceIndicators, if_neg (key Tag.serviceIndicators h)]
  · exact fun h => by rw [Param.infoString, if_neg (key Tag.infoString h)]
  · exact fun h => by rw [Param.heartbeatData, if_neg (key Tag.heartbeatData h)]
  · exact fun h => by rw [Param.diagnosticInformation, if_neg (key Tag.diagnosticInformation h)]

/-- C69: Protocol Data: exactly the values of at least twelve bytes are accepted, and read at the positions of RFC 4666, 3.3.1. -/
theorem c69_protocolData (p : Param) (ht : p.tag.toNat = PName.protocolData.tag) :
    (p.data.length < 12 ∧ p.protocolData = .err .paramTooShortToParse) ∨
    ∃ q, p.protocolData = .ok q ∧
      p.data = Spec.protocolData q.originatingPointCode.toNat q.destinationPointCode.toNat q.serviceIndicator.toNat
        q.networkIndicator.toNat q.messagePriority.toNat q.signalingLinkSelection.toNat q.data := by
  have ht : p.tag = Tag.protocolData := UInt16.toNat_inj.mp ht
  rw [Param.protocolData, if_neg (by simp [ht])]
  by_cases h : p.data.length < 12
  · exact .inl ⟨h, by rw [ProtocolDataPayload.parse, if_pos h]⟩
  · right
    obtain ⟨a0, a1, a2, a3, d, hd⟩ := Param.four_split p.data (by omega)
    have hl := congrArg List.length hd
    simp only [List.length_cons] at hl
    obtain ⟨b0, b1, b2, b3, d, rfl⟩ := Param.four_split d (by omega)
    simp only [List.length_cons] at hl
    obtain ⟨c0, c1, c2, c3, d, rfl⟩ := Param.four_split d (by omega)
    obtain ⟨u, hu⟩ : ∃ u, u32bytes u = [a0, a1, a2, a3] := ⟨_, u32bytes_get a0 a1 a2 a3⟩
    obtain ⟨v, hv⟩ : ∃ u, u32bytes u = [b0, b1, b2, b3] := ⟨_, u32bytes_get b0 b1 b2 b3⟩
    have he : p.data = ProtocolDataPayload.encode ⟨u, v, c0, c1, c2, c3, d⟩ := by
      rw [hd, ProtocolDataPayload.encode, hu, hv]; rfl
    refine ⟨_, by rw [he, ProtocolDataPayload.parse_encode], ?_⟩
    rw [he, ProtocolDataPayload.encode, u32bytes_spec, u32bytes_spec, Spec.protocolData]
    simp

example : value32 [0, 0, 1, 2] = 258 ∧ value32 [1, 2, 3] = 0 ∧ values32 [0, 0, 0, 1, 0, 0, 0, 2] = [1, 2] ∧
    (⟨17, 7, [1, 2, 3]⟩ : Param).aspIdentifier = .ok 0 ∧ (⟨17, 7, [1, 2, 3]⟩ : Param).tag.toNat = PName.aspIdentifier.tag := by
  decide

example : ∃ p : Param, p.tag.toNat = PName.protocolData.tag ∧ p.data.length < 12 :=
  ⟨⟨0x210, 7, [1, 2, 3]⟩, by decide⟩

/-! ### C70: nested parameters with any contents -/

/-- `x` holds the last parameter named `n` of the sequence `qs`, or nothing if there is none. -/
def HoldsLast (qs : List (Nat × Bytes)) (n : PName) (x : Option Param) : Prop :=
  match lastValue n qs with
  | some v => ∃ p, x = some p ∧ p.tag.toNat = n.tag ∧ p.data = v ∧ p.length.toNat = 4 + v.length
  | none => x = none

theorem holdsLast {b : Bytes} {ps : List Param} (h : parseMultiParams b = .ok ps) (n : PName) :
    HoldsLast (ps.map fun p => (p.tag.toNat, p.data)) n (lastWith (UInt16.ofNat n.tag) ps) := by
  rw [HoldsLast, ← lastWith_value]
  cases hl : lastWith (UInt16.ofNat n.tag) ps with
  | none => exact rfl
  | some p =>
    have h1 := List.mem_filter.mp (List.mem_of_getLast? hl)
    refine ⟨p, rfl, ?_, rfl, parseMulti_consistent h p h1.1⟩
    exact (tag_ofNat n p.tag).mpr (by simpa using h1.2)

theorem setParams_ok (ps : List Param) : ∀ (r : RoutingKeyPayload),
    (∀ p ∈ ps, ∃ n ∈ routingKeyMembers, p.tag.toNat = n.tag) →
    r.setParams ps = .ok
      ⟨(lastWith Tag.localRoutingKeyIdentifier ps).or r.localRoutingKeyIdentifier,
       (lastWith Tag.routingContext ps).or r.routingContext,
       (lastWith Tag.trafficModeType ps).or r.trafficModeType,
       (lastWith Tag.destinationPointCode ps).or r.destinationPointCode,
       (lastWith Tag.networkAppearance ps).or r.networkAppearance,
       (lastWith Tag.serviceIndicators ps).or r.serviceIndicators,
       (lastWith Tag.originatingPointCodeList ps).or r.originatingPointCodeList⟩ := by
  induction ps with
  | nil => intro r _; rfl
  | cons p ps ih =>
    intro r h
    obtain ⟨n, hn, ht⟩ := h p (by simp)
    have ih := fun r => ih r fun q hq => h q (by simp [hq])
    have ht := (tag_ofNat n p.tag).mp ht
    simp only [lastWith_cons, Option.or_assoc]
    simp only [routingKeyMembers, List.mem_cons, List.not_mem_nil, or_false] at hn
    rcases hn with rfl | rfl | rfl | rfl | rfl | rfl | rfl <;>
      (rw [RoutingKeyPayload.setParams, RoutingKeyPayload.setParam, ht]
       exact ih _)

theorem setParams_foreign (ps : List Param) : ∀ (r : RoutingKeyPayload),
    (∃ p ∈ ps, ∀ n ∈ routingKeyMembers, p.tag.toNat ≠ n.tag) → r.setParams ps = .err .paramInvalidType := by
  induction ps with
  | nil => rintro r ⟨p, hp, -⟩; simp at hp
  | cons q ps ih =>
    rintro r ⟨p, hp, h⟩
    rw [RoutingKeyPayload.setParams]
    by_cases hq : ∀ n ∈ routingKeyMembers, q.tag.toNat ≠ n.tag
    · have hq : ∀ n ∈ routingKeyMembers, q.tag ≠ UInt16.ofNat n.tag := fun n hn e => hq n hn ((tag_ofNat n q.tag).mpr e)
      simp only [routingKeyMembers, List.mem_cons, List.not_mem_nil, or_false, forall_eq_or_imp, forall_eq] at hq
      have hq : q.tag ≠ Tag.localRoutingKeyIdentifier ∧ q.tag ≠ Tag.routingContext ∧ q.tag ≠ Tag.trafficModeType ∧
        q.tag ≠ Tag.destinationPointCode ∧ q.tag ≠ Tag.networkAppearance ∧ q.tag ≠ Tag.serviceIndicators ∧
        q.tag ≠ Tag.originatingPointCodeList := hq
      obtain ⟨h1, h2, h3, h4, h5, h6, h7⟩ := hq
      rw [RoutingKeyPayload.setParam, if_neg h1, if_neg h2, if_neg h3, if_neg h4, if_neg h5, if_neg h6, if_neg h7]
      rfl
    · have hp : p ∈ ps := by
        rcases List.mem_cons.mp hp with rfl | hp
        · exact absurd h hq
        · exact hp
      have h2 : ∃ r', r.setParam q = .ok r' := by
        simp only [Classical.not_forall, Decidable.not_not] at hq
        obtain ⟨n, hn, ht⟩ := hq
        have ht := (tag_ofNat n q.tag).mp ht
        simp only [routingKeyMembers, List.mem_cons, List.not_mem_nil, or_false] at hn
        rcases hn with rfl | rfl | rfl | rfl | rfl | rfl | rfl <;>
          (rw [RoutingKeyPayload.setParam, ht]; exact ⟨_, rfl⟩)
      obtain ⟨r', h2⟩ := h2
      rw [h2]
      exact ih r' ⟨p, hp, h⟩

/-- C70: `RoutingKey()` on a Routing Key whose value is the parameter sequence `qs`: fewer than three parameters are an
`ErrInvalidLength`, a parameter that does not belong there an `ErrInvalidType`; otherwise every member is the last one given. -/
theorem c70_routingKey (p : Param) (ht : p.tag.toNat = PName.routingKey.tag) (qs : List (Nat × Bytes)) (hq : ParamSeq p.data qs) :
    (qs.length < 3 ∧ p.routingKey = .err .paramInvalidLength) ∨
    (3 ≤ qs.length ∧ (∃ q ∈ qs, ∀ n ∈ routingKeyMembers, q.1 ≠ n.tag) ∧ p.routingKey = .err .paramInvalidType) ∨
    (3 ≤ qs.length ∧ (∀ q ∈ qs, ∃ n ∈ routingKeyMembers, q.1 = n.tag) ∧ ∃ rk, p.routingKey = .ok rk ∧
      HoldsLast qs .localRoutingKeyIdentifier rk.localRoutingKeyIdentifier ∧ HoldsLast qs .routingContext rk.routingContext ∧
      HoldsLast qs .trafficModeType rk.trafficModeType ∧ HoldsLast qs .destinationPointCode rk.destinationPointCode ∧
      HoldsLast qs .networkAppearance rk.networkAppearance ∧ HoldsLast qs .serviceIndicators rk.serviceIndicators ∧
      HoldsLast qs .originatingPointCodeList rk.originatingPointCodeList) := by
  obtain ⟨ps, hp, rfl⟩ := seq_parse hq
  have ht : p.tag = Tag.routingKey := UInt16.toNat_inj.mp ht
  rw [Param.routingKey, if_neg (by simp [ht]), RoutingKeyPayload.parse, RoutingKeyPayload.unmarshalBinary, hp]
  simp only [Res.bind_ok, List.length_map]
  by_cases hl : ps.length < 3
  · exact .inl ⟨hl, by rw [if_pos hl]⟩
  rw [if_neg hl]
  right
  by_cases hf : ∃ q ∈ ps, ∀ n ∈ routingKeyMembers, q.tag.toNat ≠ n.tag
  · refine .inl ⟨by omega, ?_, setParams_foreign ps _ hf⟩
    obtain ⟨q, hq, h⟩ := hf
    exact ⟨_, List.mem_map.mpr ⟨q, hq, rfl⟩, h⟩
  · have hf : ∀ q ∈ ps, ∃ n ∈ routingKeyMembers, q.tag.toNat = n.tag := by
      intro q hq
      apply Classical.byContradiction
      intro hn
      exact hf ⟨q, hq, fun n hn' he => hn ⟨n, hn', he⟩⟩
    refine .inr ⟨by omega, ?_, _, setParams_ok ps _ hf, ?_⟩
    · intro q hq
      obtain ⟨q', hq', rfl⟩ := List.mem_map.mp hq
      exact hf q' hq'
    · simp only [Option.or_none]
      exact ⟨holdsLast hp _, holdsLast hp _, holdsLast hp _, holdsLast hp _, holdsLast hp _, holdsLast hp _, holdsLast hp _⟩

/-- C70: `RegistrationResult()` takes the three parameters by position, whatever their tags. -/
theorem c70_registrationResult (p : Param) (ht : p.tag.toNat = PName.registrationResult.tag) (qs : List (Nat × Bytes))
    (hq : ParamSeq p.data qs) :
    (qs.length ≠ 3 ∧ p.registrationResult = .err .paramInvalidLength) ∨
    ∃ a b c : Param, qs = [(a.tag.toNat, a.data), (b.tag.toNat, b.data), (c.tag.toNat, c.data)] ∧
      p.registrationResult = .ok ⟨some a, some b, some c⟩ := by
  obtain ⟨ps, hp, rfl⟩ := seq_parse hq
  have ht : p.tag = Tag.registrationResult := UInt16.toNat_inj.mp ht
  rw [Param.registrationResult, if_neg (by simp [ht]), RegistrationResultPayload.parse, RegistrationResultPayload.unmarshalBinary, hp]
  simp only [Res.bind_ok, List.length_map]
  by_cases hl : ps.length = 3
  · match ps, hl with
    | [a, b, c], _ => exact .inr ⟨a, b, c, rfl, rfl⟩
  · exact .inl ⟨hl, by rw [if_pos hl]⟩

/-- C70: `DeregistrationResult()` takes two parameters by tag and ignores others. -/
theorem c70_deregistrationResult (p : Param) (ht : p.tag.toNat = PName.deregistrationResult.tag) (qs : List (Nat × Bytes))
    (hq : ParamSeq p.data qs) :
    (qs.length ≠ 2 ∧ p.deregistrationResult = .err .paramInvalidLength) ∨
    (qs.length = 2 ∧ ∃ d, p.deregistrationResult = .ok d ∧ HoldsLast qs .routingContext d.routingContext ∧
      HoldsLast qs .deregistrationStatus d.deregistrationStatus) := by
  obtain ⟨ps, hp, rfl⟩ := seq_parse hq
  have ht : p.tag = Tag.deregistrationResult := UInt16.toNat_inj.mp ht
  rw [Param.deregistrationResult, if_neg (by simp [ht]), DeregResultPayload.parse, DeregResultPayload.unmarshalBinary, hp]
  simp only [Res.bind_ok, List.length_map]
  by_cases hl : ps.length = 2
  · refine .inr ⟨hl, _, by rw [if_neg (by simpa using hl)]; rfl, ?_⟩
    have key : ∀ (ps : List Param) (d : DeregResultPayload), ps.foldl DeregResultPayload.setParam d =
        ⟨(lastWith Tag.routingContext ps).or d.routingContext, (lastWith Tag.deregistrationStatus ps).or d.deregistrationStatus⟩ := by
      intro ps
      induction ps with
      | nil => intro d; rfl
      | cons q ps ih =>
        intro d
        rw [List.foldl_cons, ih]
        simp only [lastWith_cons, Option.or_assoc]
        rw [DeregResultPayload.setParam]
        by_cases h1 : q.tag = Tag.routingContext
        · rw [if_pos h1, if_pos h1, if_neg (by rw [h1]; decide)]; rfl
        · rw [if_neg h1, if_neg h1]
          by_cases h2 : q.tag = Tag.deregistrationStatus
          · rw [if_pos h2, if_pos h2]; rfl
          · rw [if_neg h2, if_neg h2]; rfl
    rw [key]
    simp only [Option.or_none]
    exact ⟨holdsLast hp _, holdsLast hp _⟩
  · exact .inl ⟨hl, by rw [if_pos hl]⟩

/-- A Deregistration Result in which the Routing Context is given twice and the status is missing. -/
example : (⟨0x209, 20, [0, 6, 0, 8, 0, 0, 0, 1, 0, 6, 0, 8, 0, 0, 0, 2]⟩ : Param).deregistrationResult =
    .ok ⟨some ⟨6, 8, [0, 0, 0, 2]⟩, none⟩ := by decide +kernel

/-- C70: if the value is no parameter sequence, all three report an error; nothing panics. -/
theorem c70_malformed (p : Param) (hq : ∀ qs, ¬ ParamSeq p.data qs) :
    (∃ e, p.routingKey = .err e) ∧ (∃ e, p.registrationResult = .err e) ∧ ∃ e, p.deregistrationResult = .err e := by
  have h : ∃ e, parseMultiParams p.data = .err e := by
    rcases c04_total p.data with ⟨ps, h⟩ | h | h
    · exact absurd (paramSeq_of_parse h) (hq _)
    · exact ⟨_, h⟩
    · exact ⟨_, h⟩
  obtain ⟨e, h⟩ := h
  refine ⟨?_, ?_, ?_⟩
  · rw [Param.routingKey]; split
    · exact ⟨_, rfl⟩
    · exact ⟨e, by rw [RoutingKeyPayload.parse, RoutingKeyPayload.unmarshalBinary, h]; rfl⟩
  · rw [Param.registrationResult]; split
    · exact ⟨_, rfl⟩
    · exact ⟨e, by rw [RegistrationResultPayload.parse, RegistrationResultPayload.unmarshalBinary, h]; rfl⟩
  · rw [Param.deregistrationResult]; split
    · exact ⟨_, rfl⟩
    · exact ⟨e, by rw [DeregResultPayload.parse, DeregResultPayload.unmarshalBinary, h]; rfl⟩

/-- A Routing Key with an INFO String inside, and one where the third parameter repeats the first. -/
example : (⟨0x207, 28, [2, 0xa, 0, 8, 0, 0, 0, 1, 0, 6, 0, 8, 0, 0, 0, 2, 0, 4, 0, 8, 1, 2, 3, 4]⟩ : Param).routingKey =
      .err .paramInvalidType ∧
    (⟨0x207, 28, [2, 0xa, 0, 8, 0, 0, 0, 1, 0, 6, 0, 8, 0, 0, 0, 2, 2, 0xa, 0, 8, 0, 0, 0, 9]⟩ : Param).routingKey =
      .ok ⟨some ⟨0x20a, 8, [0, 0, 0, 9]⟩, some ⟨6, 8, [0, 0, 0, 2]⟩, none, none, none, none, none⟩ := by
  decide

/-- They meet the hypotheses of `c70_routingKey`. -/
example : ∃ qs, ParamSeq [2, 0xa, 0, 8, 0, 0, 0, 1, 0, 6, 0, 8, 0, 0, 0, 2, 0, 4, 0, 8, 1, 2, 3, 4] qs :=
  (c05_accept_iff _).mp ⟨[⟨0x20a, 8, [0, 0, 0, 1]⟩, ⟨6, 8, [0, 0, 0, 2]⟩, ⟨4, 8, [1, 2, 3, 4]⟩], by decide⟩

/-- For `c70_registrationResult`: A Registration Result with three parameters of wrong types is accepted. -/
example : (⟨0x208, 28, [0, 4, 0, 8, 0, 0, 0, 1, 0, 4, 0, 8, 0, 0, 0, 2, 0, 4, 0, 8, 1, 2, 3, 4]⟩ : Param).registrationResult =
    .ok ⟨some ⟨4, 8, [0, 0, 0, 1]⟩, some ⟨4, 8, [0, 0, 0, 2]⟩, some ⟨4, 8, [1, 2, 3, 4]⟩⟩ := by
  decide

example : ∀ qs, ¬ ParamSeq [0, 4, 0] qs := fun qs h => by
  have := (c05_accept_iff [0, 4, 0]).mpr ⟨qs, h⟩
  obtain ⟨ps, h⟩ := this
  exact absurd h (by rw [show parseMultiParams [0, 4, 0] = .err .paramTooShortToParse by decide]; exact nofun)

end M3
