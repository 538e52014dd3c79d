import Verif.Props.Params
import Verif.Lemmas.ParamKinds
import Verif.Spec.Table

/-! Properties C07-C15: constructors and accessors of individual parameters. -/

set_option autoImplicit false

namespace M3

open Spec (be32 tlv pad PName maxValue)

/-- A parameter `p` goes over the wire as `bytes` and what the receiver parses satisfies `read`. -/
def ViaWire (p : Param) (bytes : Bytes) (read : Param → Prop) : Prop :=
  p.marshalBinary = .ok bytes ∧ ∃ q, Param.parse bytes = .ok q ∧ read q

theorem viaWire_of (p : Param) (bytes : Bytes) (read : Param → Prop) (hc : p.Consistent)
    (hb : tlv p.tag.toNat p.data = bytes) (hr : read p) : ViaWire p bytes read := by
  have he := Param.encode_consistent p hc
  refine ⟨by rw [Param.marshalBinary_encode, he, hb], p, ?_, hr⟩
  have := Param.parse_encode p hc []
  rwa [List.append_nil, he, hb] at this

/-! ### C07: 32-bit parameters -/

/-- C07 for AspIdentifier. -/
theorem c07_aspIdentifier (v : UInt32) :
    ViaWire (Param.newAspIdentifier v) (tlv PName.aspIdentifier.tag (be32 v.toNat))
      (fun q => q.aspIdentifier = .ok v) :=
  viaWire_of _ _ _ rfl (by rw [← u32bytes_spec]; rfl) (by
    show Param.aspIdentifier (Param.newUint32Val Tag.aspIdentifier v) = _
    rw [Param.aspIdentifier, if_neg (by simp [Param.newUint32Val])]
    exact Param.decodeUint32Val_words _ v rfl)

/-- C07 for TrafficModeType. -/
theorem c07_trafficModeType (v : UInt32) :
    ViaWire (Param.newTrafficModeType v) (tlv PName.trafficModeType.tag (be32 v.toNat))
      (fun q => q.trafficModeType = .ok v) :=
  viaWire_of _ _ _ rfl (by rw [← u32bytes_spec]; rfl) (by
    show Param.trafficModeType (Param.newUint32Val Tag.trafficModeType v) = _
    rw [Param.trafficModeType, if_neg (by simp [Param.newUint32Val])]
    exact Param.decodeUint32Val_words _ v rfl)

/-- C07 for NetworkAppearance. -/
theorem c07_networkAppearance (v : UInt32) :
    ViaWire (Param.newNetworkAppearance v) (tlv PName.networkAppearance.tag (be32 v.toNat))
      (fun q => q.networkAppearance = .ok v) :=
  viaWire_of _ _ _ rfl (by rw [← u32bytes_spec]; rfl) (by
    show Param.networkAppearance (Param.newUint32Val Tag.networkAppearance v) = _
    rw [Param.networkAppearance, if_neg (by simp [Param.newUint32Val])]
    exact Param.decodeUint32Val_words _ v rfl)

/-- C07 for CorrelationID. -/
theorem c07_correlationID (v : UInt32) :
    ViaWire (Param.newCorrelationID v) (tlv PName.correlationID.tag (be32 v.toNat))
      (fun q => q.correlationID = .ok v) :=
  viaWire_of _ _ _ rfl (by rw [← u32bytes_spec]; rfl) (by
    show Param.correlationID (Param.newUint32Val Tag.correlationID v) = _
    rw [Param.correlationID, if_neg (by simp [Param.newUint32Val])]
    exact Param.decodeUint32Val_words _ v rfl)

/-- C07 for ErrorCode. -/
theorem c07_errorCode (v : UInt32) :
    ViaWire (Param.newErrorCode v) (tlv PName.errorCode.tag (be32 v.toNat))
      (fun q => q.errorCode = .ok v) :=
  viaWire_of _ _ _ rfl (by rw [← u32bytes_spec]; rfl) (by
    show Param.errorCode (Param.newUint32Val Tag.errorCode v) = _
    rw [Param.errorCode, if_neg (by simp [Param.newUint32Val])]
    exact Param.decodeUint32Val_words _ v rfl)

/-- C07 for Status. -/
theorem c07_status (v : UInt32) :
    ViaWire (Param.newStatus v) (tlv PName.status.tag (be32 v.toNat))
      (fun q => q.status = .ok v) :=
  viaWire_of _ _ _ rfl (by rw [← u32bytes_spec]; rfl) (by
    show Param.status (Param.newUint32Val Tag.status v) = _
    rw [Param.status, if_neg (by simp [Param.newUint32Val])]
    exact Param.decodeUint32Val_words _ v rfl)

/-- C07 for LocalRoutingKeyIdentifier. -/
theorem c07_localRoutingKeyIdentifier (v : UInt32) :
    ViaWire (Param.newLocalRoutingKeyIdentifier v) (tlv PName.localRoutingKeyIdentifier.tag (be32 v.toNat))
      (fun q => q.localRoutingKeyIdentifier = .ok v) :=
  viaWire_of _ _ _ rfl (by rw [← u32bytes_spec]; rfl) (by
    show Param.localRoutingKeyIdentifier (Param.newUint32Val Tag.localRoutingKeyIdentifier v) = _
    rw [Param.localRoutingKeyIdentifier, if_neg (by simp [Param.newUint32Val])]
    exact Param.decodeUint32Val_words _ v rfl)

/-- C07 for RegistrationStatus. -/
theorem c07_registrationStatus (v : UInt32) :
    ViaWire (Param.newRegistrationStatus v) (tlv PName.registrationStatus.tag (be32 v.toNat))
      (fun q => q.registrationStatus = .ok v) :=
  viaWire_of _ _ _ rfl (by rw [← u32bytes_spec]; rfl) (by
    show Param.registrationStatus (Param.newUint32Val Tag.registrationStatus v) = _
    rw [Param.registrationStatus, if_neg (by simp [Param.newUint32Val])]
    exact Param.decodeUint32Val_words _ v rfl)

/-- C07 for DeregistrationStatus. -/
theorem c07_deregistrationStatus (v : UInt32) :
    ViaWire (Param.newDeregistrationStatus v) (tlv PName.deregistrationStatus.tag (be32 v.toNat))
      (fun q => q.deregistrationStatus = .ok v) :=
  viaWire_of _ _ _ rfl (by rw [← u32bytes_spec]; rfl) (by
    show Param.deregistrationStatus (Param.newUint32Val Tag.deregistrationStatus v) = _
    rw [Param.deregistrationStatus, if_neg (by simp [Param.newUint32Val])]
    exact Param.decodeUint32Val_words _ v rfl)

example : ViaWire (Param.newAspIdentifier 0x01020304) [0, 0x11, 0, 8, 1, 2, 3, 4]
    (fun q => q.aspIdentifier = .ok 0x01020304) := c07_aspIdentifier 0x01020304

/-! ### C08: 24-bit and 8-bit parameters -/

theorem low24 (v : UInt32) (x : UInt32) (hx : x.toNat = v.toNat % 2 ^ 24) :
    x &&& 0xffffff = x := by
  apply UInt32.toNat_inj.mp
  rw [UInt32.toNat_and]
  have : (0xffffff : UInt32).toNat = 2 ^ 24 - 1 := rfl
  rw [this, Nat.and_two_pow_sub_one_eq_mod]
  omega

theorem data24 (v : UInt32) : [0] ++ Param.uint32To24 v = u32bytes (UInt32.ofNat (v.toNat % 2 ^ 24)) := by
  have hv := v.toNat_lt
  rw [u32bytes_spec]
  simp only [Param.uint32To24, Spec.be32, UInt32.toNat_ofNat', List.cons_append, List.nil_append,
    List.cons.injEq, and_true]
  refine ⟨?_, ?_, ?_, ?_⟩ <;> apply UInt8.toNat_inj.mp <;>
    simp [Nat.shiftRight_eq_div_pow] <;> omega

/-- C08 for DestinationPointCode: the low 24 bits survive, the mask byte is zero. -/
theorem c08_destinationPointCode (v : UInt32) :
    ViaWire (Param.newDestinationPointCode v) (tlv PName.destinationPointCode.tag (be32 (v.toNat % 2 ^ 24)))
      (fun q => ∃ r, q.destinationPointCode = .ok r ∧ r.toNat = v.toNat % 2 ^ 24) := by
  have hn : (UInt32.ofNat (v.toNat % 2 ^ 24)).toNat = v.toNat % 2 ^ 24 := by
    simp only [UInt32.toNat_ofNat']; omega
  refine viaWire_of _ _ _ rfl ?_ ⟨UInt32.ofNat (v.toNat % 2 ^ 24), ?_, hn⟩
  · show tlv _ ([0] ++ Param.uint32To24 v) = _
    rw [data24, u32bytes_spec, hn]; rfl
  · show Param.destinationPointCode (Param.newUint24Val Tag.destinationPointCode v) = _
    rw [Param.destinationPointCode, if_neg (by simp [Param.newUint24Val]),
      Param.decodeUint32Val_words _ _ (data24 v), Res.bind_ok, Res.pure_eq, low24 v _ hn]

/-- C08 for ConcernedDestination: the low 24 bits survive, the mask byte is zero. -/
theorem c08_concernedDestination (v : UInt32) :
    ViaWire (Param.newConcernedDestination v) (tlv PName.concernedDestination.tag (be32 (v.toNat % 2 ^ 24)))
      (fun q => ∃ r, q.concernedDestination = .ok r ∧ r.toNat = v.toNat % 2 ^ 24) := by
  have hn : (UInt32.ofNat (v.toNat % 2 ^ 24)).toNat = v.toNat % 2 ^ 24 := by
    simp only [UInt32.toNat_ofNat']; omega
  refine viaWire_of _ _ _ rfl ?_ ⟨UInt32.ofNat (v.toNat % 2 ^ 24), ?_, hn⟩
  · show tlv _ ([0] ++ Param.uint32To24 v) = _
    rw [data24, u32bytes_spec, hn]; rfl
  · show Param.concernedDestination (Param.newUint24Val Tag.concernedDestination v) = _
    rw [Param.concernedDestination, if_neg (by simp [Param.newUint24Val]),
      Param.decodeUint32Val_words _ _ (data24 v), Res.bind_ok, Res.pure_eq, low24 v _ hn]

/-- C08 for CongestionIndications. -/
theorem c08_congestionLevel (v : UInt8) :
    ViaWire (Param.newCongestionIndications v) (tlv PName.congestionIndications.tag [0, 0, 0, v])
      (fun q => ∃ r, q.congestionLevel = .ok r ∧ r.toNat = v.toNat) := by
  have hv := v.toNat_lt
  have hn : (UInt32.ofNat v.toNat).toNat = v.toNat := by
    simp only [UInt32.toNat_ofNat']; omega
  have hd : [0, 0, 0, v] = u32bytes (UInt32.ofNat v.toNat) := by
    rw [u32bytes_spec, hn]
    simp only [Spec.be32, List.cons.injEq, and_true]
    refine ⟨?_, ?_, ?_, ?_⟩ <;> apply UInt8.toNat_inj.mp <;> simp <;> omega
  refine viaWire_of _ _ _ rfl rfl ⟨UInt32.ofNat v.toNat, ?_, hn⟩
  show Param.congestionLevel (Param.newUint8Val Tag.congestionIndications v) = _
  rw [Param.congestionLevel, if_neg (by simp [Param.newUint8Val]),
      Param.decodeUint32Val_words _ _ hd, Res.bind_ok, Res.pure_eq]
  congr 1
  apply UInt32.toNat_inj.mp
  rw [UInt32.toNat_and, hn]
  have : (0xff : UInt32).toNat = 2 ^ 8 - 1 := rfl
  rw [this, Nat.and_two_pow_sub_one_eq_mod]
  omega

example : ViaWire (Param.newDestinationPointCode 0xff010203) [2, 0x0b, 0, 8, 0, 1, 2, 3]
    (fun q => ∃ r, q.destinationPointCode = .ok r ∧ r.toNat = 0x010203) :=
  c08_destinationPointCode 0xff010203

/-! ### C09: multi-valued parameters -/

theorem be32_flatMap (vs : List UInt32) :
    vs.flatMap u32bytes = (vs.map fun v => be32 v.toNat).flatten := by
  induction vs with
  | nil => rfl
  | cons v vs ih => simp [ih, u32bytes_spec]

theorem multi_consistent (t : UInt16) (vs : List UInt32) (h : vs.length ≤ 16382) :
    (Param.newMultiUint32Val t vs).Consistent :=
  Param.setLength_consistent _ (by
    show (vs.flatMap u32bytes).length ≤ 65531
    rw [Param.flatMap_u32bytes_length]; omega)

/-- C09 for RoutingContext: local read-back, any number of values. -/
theorem c09_routingContexts (vs : List UInt32) : (Param.newRoutingContext vs).routingContexts = .ok vs := by
  show Param.routingContexts (Param.newMultiUint32Val Tag.routingContext vs) = _
  rw [Param.routingContexts, if_neg (by simp [Param.newMultiUint32Val, Param.setLength])]
  exact Param.decodeMulti_words _ vs rfl

/-- C09 for RoutingContext: over the wire. -/
theorem c09_routingContexts_wire (vs : List UInt32) (h : vs.length ≤ 16382) :
    ViaWire (Param.newRoutingContext vs)
      (tlv PName.routingContext.tag ((vs.map fun v => be32 v.toNat).flatten))
      (fun q => q.routingContexts = .ok vs) :=
  viaWire_of _ _ _ (multi_consistent _ vs h)
    (by show tlv _ (vs.flatMap u32bytes) = _; rw [be32_flatMap]; rfl) (c09_routingContexts vs)

/-- C09 for AffectedPointCode: local read-back, any number of values. -/
theorem c09_affectedPointCodes (vs : List UInt32) : (Param.newAffectedPointCode vs).affectedPointCodes = .ok vs := by
  show Param.affectedPointCodes (Param.newMultiUint32Val Tag.affectedPointCode vs) = _
  rw [Param.affectedPointCodes, if_neg (by simp [Param.newMultiUint32Val, Param.setLength])]
  exact Param.decodeMulti_words _ vs rfl

/-- C09 for AffectedPointCode: over the wire. -/
theorem c09_affectedPointCodes_wire (vs : List UInt32) (h : vs.length ≤ 16382) :
    ViaWire (Param.newAffectedPointCode vs)
      (tlv PName.affectedPointCode.tag ((vs.map fun v => be32 v.toNat).flatten))
      (fun q => q.affectedPointCodes = .ok vs) :=
  viaWire_of _ _ _ (multi_consistent _ vs h)
    (by show tlv _ (vs.flatMap u32bytes) = _; rw [be32_flatMap]; rfl) (c09_affectedPointCodes vs)

/-- C09 for OriginatingPointCodeList: local read-back, any number of values. -/
theorem c09_originatingPointCodeList (vs : List UInt32) : (Param.newOriginatingPointCodeList vs).originatingPointCodeList = .ok vs := by
  show Param.originatingPointCodeList (Param.newMultiUint32Val Tag.originatingPointCodeList vs) = _
  rw [Param.originatingPointCodeList, if_neg (by simp [Param.newMultiUint32Val, Param.setLength])]
  exact Param.decodeMulti_words _ vs rfl

/-- C09 for OriginatingPointCodeList: over the wire. -/
theorem c09_originatingPointCodeList_wire (vs : List UInt32) (h : vs.length ≤ 16382) :
    ViaWire (Param.newOriginatingPointCodeList vs)
      (tlv PName.originatingPointCodeList.tag ((vs.map fun v => be32 v.toNat).flatten))
      (fun q => q.originatingPointCodeList = .ok vs) :=
  viaWire_of _ _ _ (multi_consistent _ vs h)
    (by show tlv _ (vs.flatMap u32bytes) = _; rw [be32_flatMap]; rfl) (c09_originatingPointCodeList vs)

example : ViaWire (Param.newAffectedPointCode [1, 2]) [0, 0x12, 0, 12, 0, 0, 0, 1, 0, 0, 0, 2] (fun q => q.affectedPointCodes = .ok [1, 2]) ∧
    ViaWire (Param.newOriginatingPointCodeList [1, 2]) [2, 0x0e, 0, 12, 0, 0, 0, 1, 0, 0, 0, 2]
      (fun q => q.originatingPointCodeList = .ok [1, 2]) :=
  ⟨c09_affectedPointCodes_wire [1, 2] (by decide), c09_originatingPointCodeList_wire [1, 2] (by decide)⟩

/-- C09 for RoutingContext: the singular accessor returns the first value. -/
theorem c09_routingContext_first (v : UInt32) (vs : List UInt32) :
    (Param.newRoutingContext (v :: vs)).routingContext = .ok v := by
  rw [Param.routingContext, c09_routingContexts,
    if_neg (by simp [Param.newRoutingContext, Param.newMultiUint32Val, Param.setLength])]
  rfl

/-- C09 for AffectedPointCode: the singular accessor returns the first value. -/
theorem c09_affectedPointCode_first (v : UInt32) (vs : List UInt32) :
    (Param.newAffectedPointCode (v :: vs)).affectedPointCode = .ok v := by
  rw [Param.affectedPointCode, c09_affectedPointCodes,
    if_neg (by simp [Param.newAffectedPointCode, Param.newMultiUint32Val, Param.setLength])]
  rfl

/-- C09 for RoutingContext: the first value, over the wire. -/
theorem c09_routingContext_first_wire (v : UInt32) (vs : List UInt32) (h : vs.length < 16382) :
    ViaWire (Param.newRoutingContext (v :: vs)) (tlv PName.routingContext.tag (((v :: vs).map fun v => be32 v.toNat).flatten))
      (fun q => q.routingContext = .ok v) :=
  viaWire_of _ _ _ (multi_consistent _ (v :: vs) h)
    (by show tlv _ ((v :: vs).flatMap u32bytes) = _; rw [be32_flatMap]; rfl) (c09_routingContext_first v vs)

/-- C09 for AffectedPointCode: the first value, over the wire. -/
theorem c09_affectedPointCode_first_wire (v : UInt32) (vs : List UInt32) (h : vs.length < 16382) :
    ViaWire (Param.newAffectedPointCode (v :: vs)) (tlv PName.affectedPointCode.tag (((v :: vs).map fun v => be32 v.toNat).flatten))
      (fun q => q.affectedPointCode = .ok v) :=
  viaWire_of _ _ _ (multi_consistent _ (v :: vs) h)
    (by show tlv _ ((v :: vs).flatMap u32bytes) = _; rw [be32_flatMap]; rfl) (c09_affectedPointCode_first v vs)

example : ViaWire (Param.newRoutingContext [1, 2]) [0, 6, 0, 12, 0, 0, 0, 1, 0, 0, 0, 2]
    (fun q => q.routingContexts = .ok [1, 2]) := c09_routingContexts_wire [1, 2] (by decide)

/-! ### C10: when the singular accessors panic -/

/-- C10 for RoutingContext. -/
theorem c10_routingContext (p : Param) :
    p.routingContext = .panic ↔
      p.tag.toNat = PName.routingContext.tag ∧ (p.data.length = 0 ∨ p.data.length % 4 ≠ 0) := by
  have ht : p.tag.toNat = PName.routingContext.tag ↔ p.tag = Tag.routingContext := by
    rw [← UInt16.toNat_inj]; rfl
  rw [ht, Param.routingContext]
  by_cases h : p.tag = Tag.routingContext
  · rw [if_neg (by simp [h]), Param.routingContexts, if_neg (by simp [h])]
    rcases Param.decodeMulti_cases p with ⟨hm, hd⟩ | ⟨ux, -, hl, hd⟩
    · simp [hd, rindex, h, hm]
    · cases ux with
      | nil => simp at hl; simp [hd, rindex, h, hl]
      | cons u us =>
        have hl' : p.data.length = 4 * us.length + 4 := by simpa [Nat.mul_add] using hl
        simp only [hd, Res.bind_ok, rindex]
        constructor
        · intro h; cases h
        · intro h; omega
  · simp [h]

/-- C10 for RoutingContext: in every other case a value is returned. -/
theorem c10_routingContext_otherwise (p : Param)
    (h : ¬(p.tag.toNat = PName.routingContext.tag ∧ (p.data.length = 0 ∨ p.data.length % 4 ≠ 0))) :
    ∃ v, p.routingContext = .ok v := by
  rw [← c10_routingContext] at h
  rw [Param.routingContext] at h ⊢
  by_cases ht : p.tag = Tag.routingContext
  · rw [if_neg (by simp [ht]), Param.routingContexts, if_neg (by simp [ht])] at h ⊢
    rcases Param.decodeMulti_cases p with ⟨hm, hd⟩ | ⟨ux, -, hl, hd⟩
    · simp [hd, rindex] at h
    · cases ux with
      | nil => simp [hd, rindex] at h
      | cons u us => exact ⟨u, by simp [hd, rindex]⟩
  · exact ⟨0, by simp [ht]⟩

example : (⟨6, 12, [0, 0, 0, 1, 0, 0, 0, 2]⟩ : Param).routingContext = .ok 1 := rfl

/-- C10 for AffectedPointCode. -/
theorem c10_affectedPointCode (p : Param) :
    p.affectedPointCode = .panic ↔
      p.tag.toNat = PName.affectedPointCode.tag ∧ (p.data.length = 0 ∨ p.data.length % 4 ≠ 0) := by
  have ht : p.tag.toNat = PName.affectedPointCode.tag ↔ p.tag = Tag.affectedPointCode := by
    rw [← UInt16.toNat_inj]; rfl
  rw [ht, Param.affectedPointCode]
  by_cases h : p.tag = Tag.affectedPointCode
  · rw [if_neg (by simp [h]), Param.affectedPointCodes, if_neg (by simp [h])]
    rcases Param.decodeMulti_cases p with ⟨hm, hd⟩ | ⟨ux, -, hl, hd⟩
    · simp [hd, rindex, h, hm]
    · cases ux with
      | nil => simp at hl; simp [hd, rindex, h, hl]
      | cons u us =>
        have hl' : p.data.length = 4 * us.length + 4 := by simpa [Nat.mul_add] using hl
        simp only [hd, Res.bind_ok, rindex]
        constructor
        · intro h; cases h
        · intro h; omega
  · simp [h]

/-- C10 for AffectedPointCode: in every other case a value is returned. -/
theorem c10_affectedPointCode_otherwise (p : Param)
    (h : ¬(p.tag.toNat = PName.affectedPointCode.tag ∧ (p.data.length = 0 ∨ p.data.length % 4 ≠ 0))) :
    ∃ v, p.affectedPointCode = .ok v := by
  rw [← c10_affectedPointCode] at h
  rw [Param.affectedPointCode] at h ⊢
  by_cases ht : p.tag = Tag.affectedPointCode
  · rw [if_neg (by simp [ht]), Param.affectedPointCodes, if_neg (by simp [ht])] at h ⊢
    rcases Param.decodeMulti_cases p with ⟨hm, hd⟩ | ⟨ux, -, hl, hd⟩
    · simp [hd, rindex] at h
    · cases ux with
      | nil => simp [hd, rindex] at h
      | cons u us => exact ⟨u, by simp [hd, rindex]⟩
  · exact ⟨0, by simp [ht]⟩

/-- C10: the peer can send such parameters: whatever the value, if its length is zero or not a multiple of four, the parameter is parsed and the accessor
panics. -/
theorem c10_wire (d : Bytes) (h : d.length = 0 ∨ d.length % 4 ≠ 0) (hm : d.length ≤ maxValue) :
    (∃ p, Param.parse (tlv PName.routingContext.tag d) = .ok p ∧ p.data = d ∧ p.routingContext = .panic) ∧
    ∃ p, Param.parse (tlv PName.affectedPointCode.tag d) = .ok p ∧ p.data = d ∧ p.affectedPointCode = .panic := by
  have key : ∀ t : Nat, t < 65536 → ∃ p, Param.parse (tlv t d) = .ok p ∧ p.data = d ∧ p.tag.toNat = t := fun t ht => by
    obtain ⟨b, p, h1, h2, h3, _, h5⟩ := c01_roundtrip t d hm
    have h6 := c02_tlv t d hm
    rw [h1] at h6
    cases h6
    have : ((t : Int) % 65536).toNat = t := by omega
    rw [this] at h2
    exact ⟨p, h2, h5, by omega⟩
  refine ⟨?_, ?_⟩
  · obtain ⟨p, h1, h2, h3⟩ := key PName.routingContext.tag (by decide)
    exact ⟨p, h1, h2, (c10_routingContext p).mpr ⟨h3, by rw [h2]; exact h⟩⟩
  · obtain ⟨p, h1, h2, h3⟩ := key PName.affectedPointCode.tag (by decide)
    exact ⟨p, h1, h2, (c10_affectedPointCode p).mpr ⟨h3, by rw [h2]; exact h⟩⟩

/-- Such a parameter arrives from the peer: an empty Routing Context parses. -/
example : ∃ p, Param.parse [0, 6, 0, 4] = .ok p ∧ p.routingContext = .panic :=
  ⟨⟨6, 4, []⟩, by decide, by decide⟩

example : ∃ p, Param.parse [0, 0x12, 0, 6, 1, 2, 0, 0] = .ok p ∧ p.affectedPointCode = .panic :=
  ⟨⟨0x12, 6, [1, 2]⟩, by decide, by decide⟩

/-! ### C11: ServiceIndicators -/

/-- C11: what reading back gives. -/
theorem c11_serviceIndicators (vs : Bytes) :
    (Param.newServiceIndicators vs).serviceIndicators
      = .ok (vs ++ List.replicate (4 - vs.length % 4) 0) := by
  show Param.serviceIndicators (Param.newMultiUint8Val Tag.serviceIndicators vs) = _
  rw [Param.serviceIndicators, if_neg (by simp [Param.newMultiUint8Val, Param.setLength])]
  simp only [Param.newMultiUint8Val, Param.setLength, Slice.copy, Slice.make,
    Param.writeAt_replicate_zero]
  rw [List.take_of_length_le (by omega)]
  congr 2
  rw [Nat.add_sub_cancel_left]

/-- C11: the list given is never read back. -/
theorem c11_never_equal (vs : Bytes) : (Param.newServiceIndicators vs).serviceIndicators ≠ .ok vs := by
  rw [c11_serviceIndicators]
  intro h
  have h1 := congrArg List.length (Res.ok.inj h)
  simp at h1
  omega

example : (Param.newServiceIndicators [3, 5, 8, 9]).serviceIndicators = .ok [3, 5, 8, 9, 0, 0, 0, 0] :=
  c11_serviceIndicators [3, 5, 8, 9]

/-! ### C12: User/Cause and Status -/

theorem pack_val (user cause : UInt16) :
    ((cause.toUInt32 <<< 16) ||| user.toUInt32).toNat = cause.toNat * 65536 + user.toNat := by
  have hu := user.toNat_lt
  have hc := cause.toNat_lt
  have e16 : (16 : UInt32).toNat % 32 = 16 := rfl
  simp only [UInt32.toNat_or, UInt32.toNat_shiftLeft, UInt16.toNat_toUInt32, e16]
  rw [Nat.mod_eq_of_lt (a := cause.toNat <<< 16) (by rw [Nat.shiftLeft_eq]; omega),
    ← Nat.shiftLeft_add_eq_or_of_lt (by omega), Nat.shiftLeft_eq]

theorem high16 (v : UInt32) : (v >>> 16).toUInt16.toNat = v.toNat / 65536 := by
  have := v.toNat_lt
  simp [Nat.shiftRight_eq_div_pow]; omega

theorem low16 (v : UInt32) : (v &&& 0xffff).toUInt16.toNat = v.toNat % 65536 := by
  have e : (0xffff : UInt32).toNat = 2 ^ 16 - 1 := rfl
  simp only [UInt32.toNat_toUInt16, UInt32.toNat_and, e, Nat.and_two_pow_sub_one_eq_mod]
  omega

/-- C12 for User/Cause. -/
theorem c12_userCause (user cause : UInt16) :
    ViaWire (Param.newUserCause user cause)
      (tlv PName.userCause.tag (be32 (cause.toNat * 65536 + user.toNat)))
      (fun q => q.userIdentity = .ok user ∧ q.unavailabilityCause = .ok cause ∧
        ∃ w, q.userCause = .ok w ∧ w.toNat = cause.toNat * 65536 + user.toNat) := by
  have hv := pack_val user cause
  have hu := user.toNat_lt
  generalize hw : (cause.toUInt32 <<< 16) ||| user.toUInt32 = w at hv
  have hnew : Param.newUserCause user cause = Param.newUint32Val Tag.userCause w := by
    rw [← hw]; rfl
  have hdec := Param.decodeUint32Val_words (Param.newUint32Val Tag.userCause w) w rfl
  rw [hnew]
  refine viaWire_of _ _ _ rfl (by rw [← hv, ← u32bytes_spec]; rfl) ⟨?_, ?_, w, ?_, hv⟩
  · rw [Param.userIdentity, if_neg (by simp [Param.newUint32Val]), hdec, Res.bind_ok, Res.pure_eq]
    congr 1
    apply UInt16.toNat_inj.mp
    rw [low16, hv]; omega
  · rw [Param.unavailabilityCause, if_neg (by simp [Param.newUint32Val]), hdec, Res.bind_ok,
      Res.pure_eq]
    congr 1
    apply UInt16.toNat_inj.mp
    rw [high16, hv]; omega
  · rw [Param.userCause, if_neg (by simp [Param.newUint32Val]), hdec]

/-- C12 for Status. -/
theorem c12_status (v : UInt32) :
    ViaWire (Param.newStatus v) (tlv PName.status.tag (be32 v.toNat))
      (fun q => ∃ t i, q.statusType = .ok t ∧ q.statusInfo = .ok i ∧
        t.toNat = v.toNat / 65536 ∧ i.toNat = v.toNat % 65536) := by
  have hdec := Param.decodeUint32Val_words (Param.newUint32Val Tag.status v) v rfl
  refine viaWire_of _ _ _ rfl (by rw [← u32bytes_spec]; rfl)
    ⟨(v >>> 16).toUInt16, (v &&& 0xffff).toUInt16, ?_, ?_, high16 v, low16 v⟩
  · show Param.statusType (Param.newUint32Val Tag.status v) = _
    rw [Param.statusType, if_neg (by simp [Param.newUint32Val]), hdec]; rfl
  · show Param.statusInfo (Param.newUint32Val Tag.status v) = _
    rw [Param.statusInfo, if_neg (by simp [Param.newUint32Val]), hdec]; rfl

example : ViaWire (Param.newUserCause 3 1) [2, 4, 0, 8, 0, 1, 0, 3] (fun q => q.userIdentity = .ok 3) :=
  ⟨(c12_userCause 3 1).1, by
    obtain ⟨q, h1, h2, _⟩ := (c12_userCause 3 1).2
    exact ⟨q, h1, h2⟩⟩

/-! ### C13: Protocol Data -/

/-- C13: reading back locally, any data. -/
theorem c13_local (opc dpc : UInt32) (si ni mp sls : UInt8) (data : Bytes) :
    ∃ p, Param.newProtocolData opc dpc si ni mp sls data = .ok p ∧
      p.protocolData = .ok ⟨opc, dpc, si, ni, mp, sls, data⟩ := by
  refine ⟨_, Param.newProtocolData_eq opc dpc si ni mp sls data, ?_⟩
  rw [Param.protocolData, if_neg (by simp [Param.setLength])]
  exact ProtocolDataPayload.parse_encode _

/-- C13: layout and round trip over the wire. -/
theorem c13_wire (opc dpc : UInt32) (si ni mp sls : UInt8) (data : Bytes)
    (h : data.length ≤ 65519) :
    ∃ p, Param.newProtocolData opc dpc si ni mp sls data = .ok p ∧
      ViaWire p (tlv PName.protocolData.tag (Spec.protocolData opc.toNat dpc.toNat si.toNat ni.toNat
          mp.toNat sls.toNat data))
        (fun q => q.protocolData = .ok ⟨opc, dpc, si, ni, mp, sls, data⟩) := by
  refine ⟨_, Param.newProtocolData_eq opc dpc si ni mp sls data, ?_⟩
  refine viaWire_of _ _ _ (Param.setLength_consistent _ (by
    show (ProtocolDataPayload.encode _).length ≤ 65531
    rw [ProtocolDataPayload.encode_length]; simp; omega)) ?_ ?_
  · show tlv _ (ProtocolDataPayload.encode _) = _
    simp only [ProtocolDataPayload.encode, u32bytes_spec, Spec.protocolData, UInt8.ofNat_toNat]
    rfl
  · rw [Param.protocolData, if_neg (by simp [Param.setLength])]
    exact ProtocolDataPayload.parse_encode _

/-- C13: exactly the payloads shorter than twelve bytes are rejected, with `ErrTooShortToParse`. -/
theorem c13_parse (b : Bytes) :
    (b.length < 12 ∧ ProtocolDataPayload.parse b = .err .paramTooShortToParse) ∨
    (12 ≤ b.length ∧ ∃ pd, ProtocolDataPayload.parse b = .ok pd ∧ pd.encode = b) := by
  by_cases h : b.length < 12
  · exact .inl ⟨h, by simp [ProtocolDataPayload.parse, h]⟩
  · right
    refine ⟨by omega, ?_⟩
    obtain ⟨o0, o1, o2, o3, r, rfl⟩ := Param.four_split b (by omega)
    obtain ⟨d0, d1, d2, d3, r, rfl⟩ := Param.four_split r (by simp at h; omega)
    obtain ⟨si, ni, mp, sls, d, rfl⟩ := Param.four_split r (by simp at h; omega)
    have hb : ProtocolDataPayload.encode
        ⟨o3.toUInt32 ||| (o2.toUInt32 <<< 8) ||| (o1.toUInt32 <<< 16) ||| (o0.toUInt32 <<< 24),
          d3.toUInt32 ||| (d2.toUInt32 <<< 8) ||| (d1.toUInt32 <<< 16) ||| (d0.toUInt32 <<< 24),
          si, ni, mp, sls, d⟩
        = o0 :: o1 :: o2 :: o3 :: d0 :: d1 :: d2 :: d3 :: si :: ni :: mp :: sls :: d := by
      rw [ProtocolDataPayload.encode, u32bytes_get o0 o1 o2 o3, u32bytes_get d0 d1 d2 d3]; rfl
    exact ⟨_, by rw [← hb]; exact ProtocolDataPayload.parse_encode _, hb⟩

/-- C13: no more than 65519 bytes of user data ever come out of a parameter parsed from the wire,
so longer data cannot survive the trip. -/
theorem c13_max (b : Bytes) (q : Param) (hq : Param.parse b = .ok q) (pd : ProtocolDataPayload)
    (h : q.protocolData = .ok pd) : pd.data.length ≤ 65519 := by
  obtain ⟨rest, _, hl⟩ := Param.parse_ok hq
  have hlt := q.length.toNat_lt
  rw [Param.protocolData] at h
  split at h
  · cases h
  · rcases c13_parse q.data with ⟨_, he⟩ | ⟨_, pd', he, hb⟩
    · rw [he] at h; cases h
    · rw [he] at h; cases h
      have := ProtocolDataPayload.encode_length pd
      rw [hb] at this
      omega

example : ∃ p, Param.newProtocolData 1 2 3 4 5 6 [7, 8, 9] = .ok p ∧
    ViaWire p [2, 0x10, 0, 19, 0, 0, 0, 1, 0, 0, 0, 2, 3, 4, 5, 6, 7, 8, 9, 0]
      (fun q => q.protocolData = .ok ⟨1, 2, 3, 4, 5, 6, [7, 8, 9]⟩) :=
  c13_wire 1 2 3 4 5 6 [7, 8, 9] (by decide)

example : ∃ q pd, Param.parse [2, 0x10, 0, 16, 0, 0, 0, 1, 0, 0, 0, 2, 3, 4, 5, 6] = .ok q ∧
    q.protocolData = .ok pd := ⟨⟨0x210, 16, [0, 0, 0, 1, 0, 0, 0, 2, 3, 4, 5, 6]⟩,
      ⟨1, 2, 3, 4, 5, 6, []⟩, by decide, by decide⟩

/-! ### C14: nested parameters -/

/-- A member of a nested parameter: absent, or with the given tag and a consistent length field. -/
def Member (name : PName) (x : Option Param) : Prop :=
  ∀ p, x = some p → p.tag.toNat = name.tag ∧ p.length.toNat = 4 + p.data.length

/-- Number of members that are present. -/
def countPresent (l : List (Option Param)) : Nat := (l.filter Option.isSome).length

theorem countPresent_eq (l : List (Option Param)) : (Param.present l).length = countPresent l := by
  induction l with
  | nil => rfl
  | cons x l ih =>
    cases x with
    | none => simpa [Param.present, countPresent] using ih
    | some p => simpa [Param.present, countPresent] using ih

theorem member_consistent {name : PName} {x : Option Param} (h : Member name x) :
    ∀ p ∈ x.toList, p.Consistent := by
  intro p hp
  cases x with
  | none => simp at hp
  | some q => simp at hp; subst hp; exact (h _ rfl).2

theorem rk_set {name : PName} {t : UInt16} (ht : t.toNat = name.tag) {x : Option Param}
    (h : Member name x) : ∀ p, x = some p → p.tag = t := by
  intro p hp
  apply UInt16.toNat_inj.mp
  rw [(h p hp).1, ht]

/-- C14 for RoutingKey: at least three members present. -/
theorem c14_routingKey (rk : RoutingKeyPayload)
    (h1 : Member .localRoutingKeyIdentifier rk.localRoutingKeyIdentifier)
    (h2 : Member .routingContext rk.routingContext)
    (h3 : Member .trafficModeType rk.trafficModeType)
    (h4 : Member .destinationPointCode rk.destinationPointCode)
    (h5 : Member .networkAppearance rk.networkAppearance)
    (h6 : Member .serviceIndicators rk.serviceIndicators)
    (h7 : Member .originatingPointCodeList rk.originatingPointCodeList)
    (hn : 3 ≤ countPresent [rk.localRoutingKeyIdentifier, rk.routingContext, rk.trafficModeType,
      rk.destinationPointCode, rk.networkAppearance, rk.serviceIndicators,
      rk.originatingPointCodeList]) :
    ∃ p, Param.newRoutingKey rk = .ok p ∧ p.routingKey = .ok rk := by
  obtain ⟨a1, a2, a3, a4, a5, a6, a7⟩ := rk
  simp only at h1 h2 h3 h4 h5 h6 h7 hn
  refine ⟨_, Param.newNested_eq _ _, ?_⟩
  rw [Param.routingKey, if_neg (by simp [Param.setLength]), RoutingKeyPayload.parse,
    RoutingKeyPayload.unmarshalBinary]
  simp only [Param.setLength]
  rw [parseMulti_encode]
  · simp only [Res.bind_ok]
    rw [if_neg (by rw [countPresent_eq]; omega)]
    have t1 := rk_set (t := Tag.localRoutingKeyIdentifier) rfl h1
    have t2 := rk_set (t := Tag.routingContext) rfl h2
    have t3 := rk_set (t := Tag.trafficModeType) rfl h3
    have t4 := rk_set (t := Tag.destinationPointCode) rfl h4
    have t5 := rk_set (t := Tag.networkAppearance) rfl h5
    have t6 := rk_set (t := Tag.serviceIndicators) rfl h6
    have t7 := rk_set (t := Tag.originatingPointCodeList) rfl h7
    have hp : Param.present [a1, a2, a3, a4, a5, a6, a7] = a1.toList ++ (a2.toList ++ (a3.toList ++
        (a4.toList ++ (a5.toList ++ (a6.toList ++ a7.toList))))) := by
      clear hn h1 h2 h3 h4 h5 h6 h7 t1 t2 t3 t4 t5 t6 t7
      cases a1 <;> cases a2 <;> cases a3 <;> cases a4 <;> cases a5 <;> cases a6 <;> cases a7 <;> rfl
    rw [hp]
    have s1 : ∀ (r : RoutingKeyPayload) (ps : List Param), r.localRoutingKeyIdentifier = none →
        r.setParams (a1.toList ++ ps) = ({ r with localRoutingKeyIdentifier := a1 } : RoutingKeyPayload).setParams ps := by
      intro r ps hr
      cases a1 with
      | none => cases r; simp_all
      | some p =>
        simp [RoutingKeyPayload.setParams, RoutingKeyPayload.setParam, t1 p rfl]
    have s2 : ∀ (r : RoutingKeyPayload) (ps : List Param), r.routingContext = none →
        r.setParams (a2.toList ++ ps) = ({ r with routingContext := a2 } : RoutingKeyPayload).setParams ps := by
      intro r ps hr
      cases a2 with
      | none => cases r; simp_all
      | some p =>
        simp [RoutingKeyPayload.setParams, RoutingKeyPayload.setParam, t2 p rfl, Tag.routingContext,
          Tag.localRoutingKeyIdentifier]
    have s3 : ∀ (r : RoutingKeyPayload) (ps : List Param), r.trafficModeType = none →
        r.setParams (a3.toList ++ ps) = ({ r with trafficModeType := a3 } : RoutingKeyPayload).setParams ps := by
      intro r ps hr
      cases a3 with
      | none => cases r; simp_all
      | some p =>
        simp [RoutingKeyPayload.setParams, RoutingKeyPayload.setParam, t3 p rfl, Tag.routingContext,
          Tag.localRoutingKeyIdentifier, Tag.trafficModeType]
    have s4 : ∀ (r : RoutingKeyPayload) (ps : List Param), r.destinationPointCode = none →
        r.setParams (a4.toList ++ ps) = ({ r with destinationPointCode := a4 } : RoutingKeyPayload).setParams ps := by
      intro r ps hr
      cases a4 with
      | none => cases r; simp_all
      | some p =>
        simp [RoutingKeyPayload.setParams, RoutingKeyPayload.setParam, t4 p rfl, Tag.routingContext,
          Tag.localRoutingKeyIdentifier, Tag.trafficModeType, Tag.destinationPointCode]
    have s5 : ∀ (r : RoutingKeyPayload) (ps : List Param), r.networkAppearance = none →
        r.setParams (a5.toList ++ ps) = ({ r with networkAppearance := a5 } : RoutingKeyPayload).setParams ps := by
      intro r ps hr
      cases a5 with
      | none => cases r; simp_all
      | some p =>
        simp [RoutingKeyPayload.setParams, RoutingKeyPayload.setParam, t5 p rfl, Tag.routingContext,
          Tag.localRoutingKeyIdentifier, Tag.trafficModeType, Tag.destinationPointCode,
          Tag.networkAppearance]
    have s6 : ∀ (r : RoutingKeyPayload) (ps : List Param), r.serviceIndicators = none →
        r.setParams (a6.toList ++ ps) = ({ r with serviceIndicators := a6 } : RoutingKeyPayload).setParams ps := by
      intro r ps hr
      cases a6 with
      | none => cases r; simp_all
      | some p =>
        simp [RoutingKeyPayload.setParams, RoutingKeyPayload.setParam, t6 p rfl, Tag.routingContext,
          Tag.localRoutingKeyIdentifier, Tag.trafficModeType, Tag.destinationPointCode,
          Tag.networkAppearance, Tag.serviceIndicators]
    have s7 : ∀ (r : RoutingKeyPayload), r.originatingPointCodeList = none →
        r.setParams (a7.toList) = .ok ({ r with originatingPointCodeList := a7 } : RoutingKeyPayload) := by
      intro r hr
      cases a7 with
      | none => cases r; simp_all [RoutingKeyPayload.setParams]
      | some p =>
        simp [RoutingKeyPayload.setParams, RoutingKeyPayload.setParam, t7 p rfl, Tag.routingContext,
          Tag.localRoutingKeyIdentifier, Tag.trafficModeType, Tag.destinationPointCode,
          Tag.networkAppearance, Tag.serviceIndicators, Tag.originatingPointCodeList]
    rw [s1 _ _ rfl, s2 _ _ rfl, s3 _ _ rfl, s4 _ _ rfl, s5 _ _ rfl, s6 _ _ rfl, s7 _ rfl]
  · intro p hp
    simp only [Param.present, List.mem_filterMap, id] at hp
    obtain ⟨x, hx, rfl⟩ := hp
    simp only [List.mem_cons, List.not_mem_nil, or_false] at hx
    rcases hx with h | h | h | h | h | h | h
    · exact (h1 p h.symm).2
    · exact (h2 p h.symm).2
    · exact (h3 p h.symm).2
    · exact (h4 p h.symm).2
    · exact (h5 p h.symm).2
    · exact (h6 p h.symm).2
    · exact (h7 p h.symm).2

/-- C14 for RoutingKey: with fewer than three members the accessor fails. -/
theorem c14_routingKey_few (rk : RoutingKeyPayload)
    (hc : ∀ p, some p ∈ [rk.localRoutingKeyIdentifier, rk.routingContext, rk.trafficModeType,
      rk.destinationPointCode, rk.networkAppearance, rk.serviceIndicators,
      rk.originatingPointCodeList] → p.length.toNat = 4 + p.data.length)
    (hn : countPresent [rk.localRoutingKeyIdentifier, rk.routingContext, rk.trafficModeType,
      rk.destinationPointCode, rk.networkAppearance, rk.serviceIndicators,
      rk.originatingPointCodeList] < 3) :
    ∃ p, Param.newRoutingKey rk = .ok p ∧ p.routingKey = .err .paramInvalidLength := by
  refine ⟨_, Param.newNested_eq _ _, ?_⟩
  rw [Param.routingKey, if_neg (by simp [Param.setLength]), RoutingKeyPayload.parse,
    RoutingKeyPayload.unmarshalBinary]
  simp only [Param.setLength]
  rw [parseMulti_encode]
  · simp only [Res.bind_ok]
    rw [if_pos (by rw [countPresent_eq]; omega)]
  · intro p hp
    simp only [Param.present, List.mem_filterMap, id] at hp
    obtain ⟨x, hx, rfl⟩ := hp
    exact hc p hx

/-- C14 for RegistrationResult: all three members present (the accessor works by position). -/
theorem c14_registrationResult (a b c : Param)
    (ha : a.length.toNat = 4 + a.data.length) (hb : b.length.toNat = 4 + b.data.length)
    (hc : c.length.toNat = 4 + c.data.length) :
    ∃ p, Param.newRegistrationResult ⟨some a, some b, some c⟩ = .ok p ∧
      p.registrationResult = .ok ⟨some a, some b, some c⟩ := by
  refine ⟨_, Param.newNested_eq _ _, ?_⟩
  rw [Param.registrationResult, if_neg (by simp [Param.setLength]), RegistrationResultPayload.parse,
    RegistrationResultPayload.unmarshalBinary]
  simp only [Param.setLength]
  rw [parseMulti_encode]
  · rfl
  · intro p hp
    simp only [Param.present, List.filterMap_cons, id, List.filterMap_nil, List.mem_cons,
      List.not_mem_nil, or_false] at hp
    rcases hp with rfl | rfl | rfl
    · exact ha
    · exact hb
    · exact hc

/-- C14 for RegistrationResult: with a member missing the accessor fails. -/
theorem c14_registrationResult_few (rr : RegistrationResultPayload)
    (hc : ∀ p, some p ∈ [rr.localRoutingKeyIdentifier, rr.registrationStatus, rr.routingContext] →
      p.length.toNat = 4 + p.data.length)
    (hn : countPresent [rr.localRoutingKeyIdentifier, rr.registrationStatus, rr.routingContext] ≠ 3) :
    ∃ p, Param.newRegistrationResult rr = .ok p ∧ p.registrationResult = .err .paramInvalidLength := by
  refine ⟨_, Param.newNested_eq _ _, ?_⟩
  rw [Param.registrationResult, if_neg (by simp [Param.setLength]), RegistrationResultPayload.parse,
    RegistrationResultPayload.unmarshalBinary]
  simp only [Param.setLength]
  rw [parseMulti_encode]
  · simp only [Res.bind_ok]
    rw [if_pos (by rw [countPresent_eq]; exact hn)]
  · intro p hp
    simp only [Param.present, List.mem_filterMap, id] at hp
    obtain ⟨x, hx, rfl⟩ := hp
    exact hc p hx

example : countPresent [some (Param.newLocalRoutingKeyIdentifier 1), none, some (Param.newRoutingContext [2])] ≠ 3 ∧
    (Param.newLocalRoutingKeyIdentifier 1).length.toNat = 4 + (Param.newLocalRoutingKeyIdentifier 1).data.length := by decide

/-- C14 for DeregistrationResult: both members present. -/
theorem c14_deregistrationResult (a b : Param)
    (ha : Member .routingContext (some a)) (hb : Member .deregistrationStatus (some b)) :
    ∃ p, Param.newDeregistrationResult ⟨some a, some b⟩ = .ok p ∧
      p.deregistrationResult = .ok ⟨some a, some b⟩ := by
  refine ⟨_, Param.newNested_eq _ _, ?_⟩
  rw [Param.deregistrationResult, if_neg (by simp [Param.setLength]), DeregResultPayload.parse,
    DeregResultPayload.unmarshalBinary]
  simp only [Param.setLength]
  have ta := rk_set (t := Tag.routingContext) rfl ha a rfl
  have tb := rk_set (t := Tag.deregistrationStatus) rfl hb b rfl
  rw [parseMulti_encode]
  · simp [Param.present, DeregResultPayload.setParam, ta, tb, Tag.routingContext,
      Tag.deregistrationStatus]
  · intro p hp
    simp only [Param.present, List.filterMap_cons, id, List.filterMap_nil, List.mem_cons,
      List.not_mem_nil, or_false] at hp
    rcases hp with rfl | rfl
    · exact (ha _ rfl).2
    · exact (hb _ rfl).2

/-- C14 for DeregistrationResult: with a member missing the accessor fails. -/
theorem c14_deregistrationResult_few (dr : DeregResultPayload)
    (hc : ∀ p, some p ∈ [dr.routingContext, dr.deregistrationStatus] →
      p.length.toNat = 4 + p.data.length)
    (hn : countPresent [dr.routingContext, dr.deregistrationStatus] ≠ 2) :
    ∃ p, Param.newDeregistrationResult dr = .ok p ∧
      p.deregistrationResult = .err .paramInvalidLength := by
  refine ⟨_, Param.newNested_eq _ _, ?_⟩
  rw [Param.deregistrationResult, if_neg (by simp [Param.setLength]), DeregResultPayload.parse,
    DeregResultPayload.unmarshalBinary]
  simp only [Param.setLength]
  rw [parseMulti_encode]
  · simp only [Res.bind_ok]
    rw [if_pos (by rw [countPresent_eq]; exact hn)]
  · intro p hp
    simp only [Param.present, List.mem_filterMap, id] at hp
    obtain ⟨x, hx, rfl⟩ := hp
    exact hc p hx

theorem member_some {name : PName} {p : Param} (h1 : p.tag.toNat = name.tag)
    (h2 : p.length.toNat = 4 + p.data.length) : Member name (some p) := by
  intro q hq; cases hq; exact ⟨h1, h2⟩

theorem member_none (name : PName) : Member name none := by intro q hq; cases hq

/-- Hypotheses of `c14_routingKey` are met by constructor-made members. -/
example : ∃ p, Param.newRoutingKey ⟨some (.newLocalRoutingKeyIdentifier 1), none, none,
      some (.newDestinationPointCode 7), some (.newNetworkAppearance 2), none, none⟩ = .ok p ∧
    p.routingKey = .ok ⟨some (.newLocalRoutingKeyIdentifier 1), none, none,
      some (.newDestinationPointCode 7), some (.newNetworkAppearance 2), none, none⟩ :=
  c14_routingKey _ (member_some rfl rfl) (member_none _) (member_none _) (member_some rfl rfl)
    (member_some rfl rfl) (member_none _) (member_none _) (by decide)

example : ∃ p, Param.newDeregistrationResult ⟨some (.newRoutingContext [5]),
      some (.newDeregistrationStatus 0)⟩ = .ok p ∧
    p.deregistrationResult = .ok ⟨some (.newRoutingContext [5]), some (.newDeregistrationStatus 0)⟩ :=
  c14_deregistrationResult _ _ (member_some rfl rfl) (member_some rfl rfl)

example : ∃ p, Param.newRoutingKey ⟨some (.newLocalRoutingKeyIdentifier 1), none, none,
      some (.newDestinationPointCode 7), none, none, none⟩ = .ok p ∧
    p.routingKey = .err .paramInvalidLength :=
  c14_routingKey_few _ (by
    intro p hp; simp at hp; rcases hp with rfl | rfl <;> rfl) (by decide)

/-! ### C15: foreign tags -/

/-- C15: every accessor, applied to a parameter with another tag, returns the zero value or
`ErrInvalidType`. -/
theorem c15_foreign_tag (p : Param) :
    (p.tag.toNat ≠ PName.aspIdentifier.tag → p.aspIdentifier = .ok 0) ∧
    (p.tag.toNat ≠ PName.trafficModeType.tag → p.trafficModeType = .ok 0) ∧
    (p.tag.toNat ≠ PName.networkAppearance.tag → p.networkAppearance = .ok 0) ∧
    (p.tag.toNat ≠ PName.correlationID.tag → p.correlationID = .ok 0) ∧
    (p.tag.toNat ≠ PName.errorCode.tag → p.errorCode = .ok 0) ∧
    (p.tag.toNat ≠ PName.status.tag → p.status = .ok 0) ∧
    (p.tag.toNat ≠ PName.localRoutingKeyIdentifier.tag → p.localRoutingKeyIdentifier = .ok 0) ∧
    (p.tag.toNat ≠ PName.registrationStatus.tag → p.registrationStatus = .ok 0) ∧
    (p.tag.toNat ≠ PName.deregistrationStatus.tag → p.deregistrationStatus = .ok 0) ∧
    (p.tag.toNat ≠ PName.userCause.tag → p.userCause = .ok 0) ∧
    (p.tag.toNat ≠ PName.destinationPointCode.tag → p.destinationPointCode = .ok 0) ∧
    (p.tag.toNat ≠ PName.concernedDestination.tag → p.concernedDestination = .ok 0) ∧
    (p.tag.toNat ≠ PName.status.tag → p.statusType = .ok 0) ∧
    (p.tag.toNat ≠ PName.status.tag → p.statusInfo = .ok 0) ∧
    (p.tag.toNat ≠ PName.userCause.tag → p.userIdentity = .ok 0) ∧
    (p.tag.toNat ≠ PName.userCause.tag → p.unavailabilityCause = .ok 0) ∧
    (p.tag.toNat ≠ PName.congestionIndications.tag → p.congestionLevel = .ok 0) ∧
    (p.tag.toNat ≠ PName.routingContext.tag → p.routingContext = .ok 0) ∧
    (p.tag.toNat ≠ PName.routingContext.tag → p.routingContexts = .ok []) ∧
    (p.tag.toNat ≠ PName.affectedPointCode.tag → p.affectedPointCode = .ok 0) ∧
    (p.tag.toNat ≠ PName.affectedPointCode.tag → p.affectedPointCodes = .ok []) ∧
    (p.tag.toNat ≠ PName.originatingPointCodeList.tag → p.originatingPointCodeList = .ok []) ∧
    (p.tag.toNat ≠ PName.serviceIndicators.tag → p.serviceIndicators = .ok []) ∧
    (p.tag.toNat ≠ PName.infoString.tag → p.infoString = .ok []) ∧
    (p.tag.toNat ≠ PName.heartbeatData.tag → p.heartbeatData = .ok []) ∧
    (p.tag.toNat ≠ PName.diagnosticInformation.tag → p.diagnosticInformation = .ok []) ∧
    (p.tag.toNat ≠ PName.protocolData.tag → p.protocolData = .err .paramInvalidType) ∧
    (p.tag.toNat ≠ PName.routingKey.tag → p.routingKey = .err .paramInvalidType) ∧
    (p.tag.toNat ≠ PName.registrationResult.tag → p.registrationResult = .err .paramInvalidType) ∧
    (p.tag.toNat ≠ PName.deregistrationResult.tag → p.deregistrationResult = .err .paramInvalidType) := by
  have key : ∀ (t : UInt16) (n : Nat), t.toNat = n → p.tag.toNat ≠ n → p.tag ≠ t := by
    intro t n ht hn he
    rw [he] at hn; exact hn ht
  refine ⟨?_, ?_, ?_, ?_, ?_, ?_, ?_, ?_, ?_, ?_, ?_, ?_, ?_, ?_, ?_, ?_, ?_, ?_, ?_, ?_, ?_, ?_, ?_, ?_, ?_, ?_, ?_, ?_, ?_, ?_⟩
  · intro h; rw [Param.aspIdentifier, if_pos (key Tag.aspIdentifier _ rfl h)]
  · intro h; rw [Param.trafficModeType, if_pos (key Tag.trafficModeType _ rfl h)]
  · intro h; rw [Param.networkAppearance, if_pos (key Tag.networkAppearance _ rfl h)]
  · intro h; rw [Param.correlationID, if_pos (key Tag.correlationID _ rfl h)]
  · intro h; rw [Param.errorCode, if_pos (key Tag.errorCode _ rfl h)]
  · intro h; rw [Param.status, if_pos (key Tag.status _ rfl h)]
  · intro h; rw [Param.localRoutingKeyIdentifier, if_pos (key Tag.localRoutingKeyIdentifier _ rfl h)]
  · intro h; rw [Param.registrationStatus, if_pos (key Tag.registrationStatus _ rfl h)]
  · intro h; rw [Param.deregistrationStatus, if_pos (key Tag.deregistrationStatus _ rfl h)]
  · intro h; rw [Param.userCause, if_pos (key Tag.userCause _ rfl h)]
  · intro h; rw [Param.destinationPointCode, if_pos (key Tag.destinationPointCode _ rfl h)]
  · intro h; rw [Param.concernedDestination, if_pos (key Tag.concernedDestination _ rfl h)]
  · intro h; rw [Param.statusType, if_pos (key Tag.status _ rfl h)]
  · intro h; rw [Param.statusInfo, if_pos (key Tag.status _ rfl h)]
  · intro h; rw [Param.userIdentity, if_pos (key Tag.userCause _ rfl h)]
  · intro h; rw [Param.unavailabilityCause, if_pos (key Tag.userCause _ rfl h)]
  · intro h; rw [Param.congestionLevel, if_pos (key Tag.congestionIndications _ rfl h)]
  · intro h; rw [Param.routingContext, if_pos (key Tag.routingContext _ rfl h)]
  · intro h; rw [Param.routingContexts, if_pos (key Tag.routingContext _ rfl h)]
  · intro h; rw [Param.affectedPointCode, if_pos (key Tag.affectedPointCode _ rfl h)]
  · intro h; rw [Param.affectedPointCodes, if_pos (key Tag.affectedPointCode _ rfl h)]
  · intro h; rw [Param.originatingPointCodeList, if_pos (key Tag.originatingPointCodeList _ rfl h)]
  · intro h; rw [Param.serviceIndicators, if_pos (key Tag.serviceIndicators _ rfl h)]
  · intro h; rw [Param.infoString, if_pos (key Tag.infoString _ rfl h)]
  · intro h; rw [Param.heartbeatData, if_pos (key Tag.heartbeatData _ rfl h)]
  · intro h; rw [Param.diagnosticInformation, if_pos (key Tag.diagnosticInformation _ rfl h)]
  · intro h; rw [Param.protocolData, if_pos (key Tag.protocolData _ rfl h)]
  · intro h; rw [Param.routingKey, if_pos (key Tag.routingKey _ rfl h)]
  · intro h; rw [Param.registrationResult, if_pos (key Tag.registrationResult _ rfl h)]
  · intro h; rw [Param.deregistrationResult, if_pos (key Tag.deregistrationResult _ rfl h)]

example : (Param.newRoutingContext []).affectedPointCode = .ok 0 ∧
    (Param.newRoutingContext []).tag.toNat ≠ PName.affectedPointCode.tag := by decide

end M3
