import Verif.Model.Nil
import Verif.Props.ParamKinds
import Verif.Props.Messages

/- C10 (the accessors that never panic), C108: nil pointers to parameters. -/

set_option autoImplicit false
set_option linter.unusedSimpArgs false

namespace M3
open Spec

/-! ### C10: the accessors that never panic -/

theorem Param.decodeUint32Val_ok (p : Param) : ∃ v, p.decodeUint32Val = .ok v := by
  by_cases h : p.data.length = 4
  · obtain ⟨a, b, c, d, e⟩ : ∃ a b c d, p.data = [a, b, c, d] := by
      match hd : p.data, h with
      | [a, b, c, d], _ => exact ⟨a, b, c, d, rfl⟩
    exact ⟨_, by rw [decodeUint32Val, if_neg (by simp [h]), e]; rfl⟩
  · exact ⟨0, by rw [decodeUint32Val, if_pos h]⟩

theorem Param.decodeMulti_ok (p : Param) : ∃ v, p.decodeMultiUint32Val = .ok v := by
  rcases Param.decodeMulti_cases p with ⟨-, hd⟩ | ⟨ux, -, -, hd⟩
  · exact ⟨_, hd⟩
  · exact ⟨_, hd⟩

/-- It returns a value or an error. -/
def Res.Returns {α : Type} (r : Res α) : Prop := (∃ a, r = .ok a) ∨ ∃ e, r = .err e

theorem Res.returns_ok {α : Type} {a : α} : (Res.ok a).Returns := .inl ⟨a, rfl⟩
theorem Res.returns_err {α : Type} {e : Err} : (Res.err e : Res α).Returns := .inr ⟨e, rfl⟩

theorem Res.Returns.bind {α β : Type} {r : Res α} {f : α → Res β} (h : r.Returns) (hf : ∀ a, (f a).Returns) : (r >>= f).Returns := by
  rcases h with ⟨a, rfl⟩ | ⟨e, rfl⟩
  · exact hf a
  · exact .inr ⟨e, rfl⟩

theorem multi_returns (b : Bytes) : (parseMultiParams b).Returns := by
  rcases parseMulti_total b with ⟨ps, h⟩ | h | h <;> rw [h]
  · exact Res.returns_ok
  · exact Res.returns_err
  · exact Res.returns_err

theorem RoutingKeyPayload.setParams_returns (ps : List Param) : ∀ r : RoutingKeyPayload, (r.setParams ps).Returns := by
  induction ps with
  | nil => exact fun r => Res.returns_ok
  | cons p ps ih =>
    intro r
    refine Res.Returns.bind ?_ ih
    unfold setParam
    repeat' split
    all_goals first | exact Res.returns_ok | exact Res.returns_err

/-- C10: every accessor but `RoutingContext` and `AffectedPointCode` returns for every parameter, whatever its tag, its length field and its data; those that
have no error to return give a value. -/
theorem c10_others (p : Param) :
    (∀ r ∈ [p.aspIdentifier, p.trafficModeType, p.networkAppearance, p.correlationID, p.errorCode, p.status, p.localRoutingKeyIdentifier,
        p.registrationStatus, p.deregistrationStatus, p.userCause, p.destinationPointCode, p.concernedDestination, p.congestionLevel],
      ∃ v, r = .ok v) ∧
    (∀ r ∈ [p.statusType, p.statusInfo, p.userIdentity, p.unavailabilityCause], ∃ v, r = .ok v) ∧
    (∀ r ∈ [p.routingContexts, p.affectedPointCodes, p.originatingPointCodeList], ∃ v, r = .ok v) ∧
    (∀ r ∈ [p.serviceIndicators, p.infoString, p.heartbeatData, p.diagnosticInformation], ∃ v, r = .ok v) ∧
    p.protocolData.Returns ∧ p.routingKey.Returns ∧ p.registrationResult.Returns ∧ p.deregistrationResult.Returns := by
  obtain ⟨v, hv⟩ := p.decodeUint32Val_ok
  obtain ⟨vs, hvs⟩ := p.decodeMulti_ok
  refine ⟨?_, ?_, ?_, ?_, ?_, ?_, ?_, ?_⟩
  · simp only [List.mem_cons, List.not_mem_nil, or_false, forall_eq_or_imp, forall_eq, Param.aspIdentifier, Param.trafficModeType,
      Param.networkAppearance, Param.correlationID, Param.errorCode, Param.status, Param.localRoutingKeyIdentifier, Param.registrationStatus,
      Param.deregistrationStatus, Param.userCause, Param.destinationPointCode, Param.concernedDestination, Param.congestionLevel, hv, Res.bind_ok,
      Res.pure_eq]
    refine ⟨?_, ?_, ?_, ?_, ?_, ?_, ?_, ?_, ?_, ?_, ?_, ?_, ?_⟩ <;> split <;> exact ⟨_, rfl⟩
  · simp only [List.mem_cons, List.not_mem_nil, or_false, forall_eq_or_imp, forall_eq, Param.statusType, Param.statusInfo, Param.userIdentity,
      Param.unavailabilityCause, hv, Res.bind_ok, Res.pure_eq]
    refine ⟨?_, ?_, ?_, ?_⟩ <;> split <;> exact ⟨_, rfl⟩
  · simp only [List.mem_cons, List.not_mem_nil, or_false, forall_eq_or_imp, forall_eq, Param.routingContexts, Param.affectedPointCodes,
      Param.originatingPointCodeList, hvs]
    refine ⟨?_, ?_, ?_⟩ <;> split <;> exact ⟨_, rfl⟩
  · simp only [List.mem_cons, List.not_mem_nil, or_false, forall_eq_or_imp, forall_eq, Param.serviceIndicators, Param.infoString,
      Param.heartbeatData, Param.diagnosticInformation]
    refine ⟨?_, ?_, ?_, ?_⟩ <;> split <;> exact ⟨_, rfl⟩
  · unfold Param.protocolData
    split
    · exact Res.returns_err
    · rcases c13_parse p.data with ⟨-, h⟩ | ⟨-, pd, h, -⟩ <;> rw [h]
      · exact Res.returns_err
      · exact Res.returns_ok
  · unfold Param.routingKey RoutingKeyPayload.parse RoutingKeyPayload.unmarshalBinary
    split
    · exact Res.returns_err
    · refine (multi_returns _).bind fun ps => ?_
      split
      · exact Res.returns_err
      · exact RoutingKeyPayload.setParams_returns _ _
  · unfold Param.registrationResult RegistrationResultPayload.parse RegistrationResultPayload.unmarshalBinary
    split
    · exact Res.returns_err
    · refine (multi_returns _).bind fun ps => ?_
      split
      · exact Res.returns_err
      · rename_i h
        match ps, Decidable.not_not.mp h with
        | [a, b, c], _ => exact Res.returns_ok
  · unfold Param.deregistrationResult DeregResultPayload.parse DeregResultPayload.unmarshalBinary
    split
    · exact Res.returns_err
    · refine (multi_returns _).bind fun ps => ?_
      split
      · exact Res.returns_err
      · exact Res.returns_ok

/-- With its own tag and data of a wrong length. -/
example : (⟨0x200, 7, [1, 2, 3]⟩ : Param).networkAppearance = .ok 0 ∧ (⟨6, 7, [1, 2, 3]⟩ : Param).routingContexts = .ok [] ∧
    (⟨0x210, 7, [1, 2, 3]⟩ : Param).protocolData = .err .paramTooShortToParse := by decide +kernel

/-! ### C108: nil pointers to parameters -/

theorem Param.read_returns (n : PName) (p : Param) : (p.read n).Returns := by
  obtain ⟨h1, -, h3, h4, h5, h6, h7, h8⟩ := c10_others p
  simp only [List.mem_cons, List.not_mem_nil, or_false, forall_eq_or_imp, forall_eq] at h1 h3 h4
  obtain ⟨a1, a2, a3, a4, a5, a6, a7, a8, a9, a10, a11, a12, a13⟩ := h1
  obtain ⟨b1, b2, b3⟩ := h3
  obtain ⟨d1, d2, d3, d4⟩ := h4
  have lift : ∀ {α : Type} {r : Res α}, (∃ v, r = .ok v) → (r >>= fun _ => Res.ok ()).Returns := by
    rintro α r ⟨v, rfl⟩
    exact Res.returns_ok
  have lift' : ∀ {α : Type} {r : Res α}, r.Returns → (r >>= fun _ => Res.ok ()).Returns := fun h => h.bind fun _ => Res.returns_ok
  cases n <;> first | exact lift (by assumption) | exact lift' (by assumption)

theorem addLens_map (ps : List Param) : ∀ l, PtrGeneric.addLens l (ps.map some) = .ok (ps.foldl (fun l pr => l + pr.marshalLen) l) := by
  induction ps with
  | nil => exact fun l => rfl
  | cons p ps ih => exact fun l => ih _

theorem addLens_nil {ps : List ParamPtr} (h : none ∈ ps) : ∀ l, PtrGeneric.addLens l ps = .panic := by
  induction ps with
  | nil => exact absurd h List.not_mem_nil
  | cons p ps ih =>
    intro l
    cases p with
    | none => rfl
    | some p =>
      rcases List.mem_cons.mp h with h | h
      · cases h
      · exact ih h _

theorem setLengths_map (ps : List Param) : PtrGeneric.setLengths (ps.map some) = ((ps.map Param.setLength).map some, .ok ()) := by
  induction ps with
  | nil => rfl
  | cons p ps ih =>
    simp only [List.map_cons, PtrGeneric.setLengths, ParamPtr.setLength, ParamPtr.call, ih]

theorem setLengths_nil (ps : List Param) (qs : List ParamPtr) :
    PtrGeneric.setLengths (ps.map some ++ none :: qs) = ((ps.map Param.setLength).map some ++ none :: qs, .panic) := by
  induction ps with
  | nil => rfl
  | cons p ps ih =>
    simp only [List.map_cons, List.cons_append, PtrGeneric.setLengths, ParamPtr.setLength, ParamPtr.call, ih]

/-- A list of pointers has no nil, or a first one. -/
theorem ptrs_split (ps : List ParamPtr) : (∃ qs : List Param, ps = qs.map some) ∨ ∃ (qs : List Param) (rs : List ParamPtr), ps = qs.map some ++ none :: rs := by
  induction ps with
  | nil => exact .inl ⟨[], rfl⟩
  | cons p ps ih =>
    cases p with
    | none => exact .inr ⟨[], ps, rfl⟩
    | some p =>
      rcases ih with ⟨qs, rfl⟩ | ⟨qs, rs, rfl⟩
      · exact .inl ⟨p :: qs, rfl⟩
      · exact .inr ⟨p :: qs, rs, rfl⟩

theorem putAll_map (ps : List Param) : ∀ (s : Slice) (o : Nat), PtrGeneric.putAll s o (ps.map some) = Msg.Generic.putAll s o ps := by
  induction ps with
  | nil => exact fun s o => rfl
  | cons p ps ih =>
    intro s o
    simp only [List.map_cons, PtrGeneric.putAll, Msg.Generic.putAll, ParamPtr.marshalTo, ParamPtr.marshalLen, ParamPtr.call, Res.bind_ok, ih]

/-- C108: `messages.New` panics exactly if one of the parameters is nil; the parameters before the first nil have then got their lengths. Otherwise it is what
`Generic.new` is. -/
theorem c108_new (ver cls typ : UInt8) :
    (∀ ps : List Param, PtrGeneric.new ver cls typ (ps.map some) = .ok (PtrGeneric.of (Msg.Generic.new ver cls typ ps))) ∧
    (∀ ps : List ParamPtr, PtrGeneric.new ver cls typ ps = .panic ↔ none ∈ ps) ∧
    ∀ (ps : List Param) (qs : List ParamPtr),
      (PtrGeneric.setLengths (ps.map some ++ none :: qs)).1 = (ps.map Param.setLength).map some ++ none :: qs := by
  have h1 : ∀ ps : List Param, PtrGeneric.new ver cls typ (ps.map some) = .ok (PtrGeneric.of (Msg.Generic.new ver cls typ ps)) := by
    intro ps
    simp only [PtrGeneric.new, PtrGeneric.setLength, setLengths_map, Res.bind_ok, PtrGeneric.marshalLen, addLens_map]
    rfl
  refine ⟨h1, fun ps => ⟨fun h => ?_, fun h => ?_⟩, fun ps qs => by rw [setLengths_nil]⟩
  · rcases ptrs_split ps with ⟨qs, rfl⟩ | ⟨qs, rs, rfl⟩
    · rw [h1] at h
      cases h
    · exact List.mem_append_right _ List.mem_cons_self
  · rcases ptrs_split ps with ⟨qs, rfl⟩ | ⟨qs, rs, rfl⟩
    · obtain ⟨q, -, hq⟩ := List.mem_map.mp h
      cases hq
    · simp only [PtrGeneric.new, PtrGeneric.setLength, setLengths_nil, Res.bind_panic]

/-- Two parameters; and a nil between them. -/
example : PtrGeneric.new 1 9 9 [some (Param.newInfoString [65]), some ⟨6, 0, [0, 0, 0, 1]⟩] =
      .ok ⟨⟨1, 0, 9, 9, 24, []⟩, [some ⟨4, 5, [65]⟩, some ⟨6, 8, [0, 0, 0, 1]⟩]⟩ ∧
    PtrGeneric.new 1 9 9 [some (Param.newInfoString [65]), none, some ⟨6, 0, [0, 0, 0, 1]⟩] = .panic ∧
    (PtrGeneric.setLengths [some ⟨4, 0, [65]⟩, none, some ⟨6, 0, [0, 0, 0, 1]⟩]).1 = [some ⟨4, 5, [65]⟩, none, some ⟨6, 0, [0, 0, 0, 1]⟩] := by
  decide +kernel

/-- C108: a `Generic` with a nil member can neither be measured nor marshalled: `MarshalLen`, `SetLength`, `MarshalBinary` and `MarshalTo` panic, the last one
also where the buffer is too short. -/
theorem c108_member {g : PtrGeneric} (h : none ∈ g.params) :
    g.marshalLen = .panic ∧ g.setLength = .panic ∧ g.marshalBinary = .panic ∧ ∀ b : Slice, g.marshalTo b = .panic := by
  have hl : g.marshalLen = .panic := addLens_nil h 8
  refine ⟨hl, ?_, ?_, fun b => ?_⟩
  · rcases ptrs_split g.params with ⟨qs, e⟩ | ⟨qs, rs, e⟩
    · rw [e] at h
      obtain ⟨q, -, hq⟩ := List.mem_map.mp h
      cases hq
    · simp only [PtrGeneric.setLength, e, setLengths_nil, Res.bind_panic]
  · simp only [PtrGeneric.marshalBinary, hl, Res.bind_panic]
  · simp only [PtrGeneric.marshalTo, hl, Res.bind_panic]

example : none ∈ (⟨⟨1, 0, 9, 9, 8, []⟩, [some ⟨4, 5, [65]⟩, none]⟩ : PtrGeneric).params := by decide +kernel

/-- C108: without a nil member the methods are those of the other theorems. -/
theorem c108_agree (g : Msg.Generic) :
    (PtrGeneric.of g).marshalLen = .ok g.marshalLen ∧ (PtrGeneric.of g).setLength = .ok (PtrGeneric.of g.setLength) ∧
    (∀ b : Slice, (PtrGeneric.of g).marshalTo b = (g.marshalTo b >>= fun r => .ok (PtrGeneric.of r.1, r.2))) ∧
    (PtrGeneric.of g).marshalBinary = (g.marshalBinary >>= fun r => .ok (PtrGeneric.of r.1, r.2)) ∧
    (PtrGeneric.of g).goString = g.goString := by
  have hl : (PtrGeneric.of g).marshalLen = .ok g.marshalLen := addLens_map g.params 8
  have ht : ∀ b : Slice, (PtrGeneric.of g).marshalTo b = (g.marshalTo b >>= fun r => .ok (PtrGeneric.of r.1, r.2)) := by
    intro b
    simp only [PtrGeneric.marshalTo, hl, Res.bind_ok, Msg.Generic.marshalTo]
    split
    · rfl
    · have e : PtrGeneric.putAll (Slice.make (g.marshalLen - 8)) 0 (PtrGeneric.of g).params = Msg.Generic.putAll (Slice.make (g.marshalLen - 8)) 0 g.params :=
        putAll_map g.params _ _
      rw [e]
      cases Msg.Generic.putAll (Slice.make (g.marshalLen - 8)) 0 g.params with
      | ok s =>
        simp only [Res.bind_ok, PtrGeneric.of]
        generalize Header.marshalTo _ b = r
        cases r <;> rfl
      | err e => rfl
      | panic => rfl
      | diverge => rfl
  refine ⟨hl, ?_, ht, ?_, ?_⟩
  · simp only [PtrGeneric.setLength, PtrGeneric.of, setLengths_map, Res.bind_ok, PtrGeneric.marshalLen, addLens_map]
    rfl
  · simp only [PtrGeneric.marshalBinary, hl, Res.bind_ok, ht, Msg.Generic.marshalBinary]
    cases g.marshalTo (Slice.make g.marshalLen) <;> rfl
  · simp only [PtrGeneric.goString, PtrGeneric.of, Msg.Generic.goString, List.map_map]
    rfl

/-- C108: `String` does not mind: a nil member is the empty string between the others. -/
theorem c108_string (g : PtrGeneric) (ps : List Param) (qs : List ParamPtr) (h : g.params = ps.map some ++ none :: qs) :
    g.goString = sprintf ["{Header: ", g.header.goString, ", Params: ",
      fmtStrings (ps.map (fun p => paramGoString (some p)) ++ "" :: qs.map paramGoString), "}"] := by
  simp only [PtrGeneric.goString, h, List.map_append, List.map_map, List.map_cons]
  rfl

example : (⟨⟨1, 0, 9, 9, 8, []⟩, [some ⟨4, 5, [65]⟩, none, some ⟨6, 4, []⟩]⟩ : PtrGeneric).goString =
    "{Header: {Version: 1, Reserved: 0x0, Class: 9, Type: 9, Length: 8, Payload: }, Params: [{Tag: 4, Length: 5, Data: 41}  {Tag: 6, Length: 4, Data: }]}" := by
  decide +kernel

/-- C108: `MarshalMultiParams` panics exactly if one of the parameters is nil; otherwise it is what the other theorems have. -/
theorem c108_multi :
    (∀ ps : List Param, marshalMultiPtrs (ps.map some) = marshalMultiParams ps) ∧
    ∀ ps : List ParamPtr, marshalMultiPtrs ps = .panic ↔ none ∈ ps := by
  have hb : ∀ p : Param, ParamPtr.marshalBinary (some p) = p.marshalBinary := fun p => rfl
  have h1 : ∀ ps : List Param, marshalMultiPtrs (ps.map some) = marshalMultiParams ps := by
    intro ps
    induction ps with
    | nil => rfl
    | cons p ps ih => simp only [List.map_cons, marshalMultiPtrs, marshalMultiParams, hb, ih]
  refine ⟨h1, fun ps => ?_⟩
  rcases ptrs_split ps with ⟨qs, rfl⟩ | ⟨qs, rs, rfl⟩
  · rw [h1, marshalMulti_eq]
    refine ⟨fun h => (nomatch h), fun h => ?_⟩
    obtain ⟨q, -, hq⟩ := List.mem_map.mp h
    cases hq
  · refine ⟨fun _ => List.mem_append_right _ List.mem_cons_self, fun _ => ?_⟩
    induction qs with
    | nil => rfl
    | cons p qs ih =>
      simp only [List.map_cons, List.cons_append, marshalMultiPtrs, hb, Param.marshalBinary_encode, Res.bind_ok]
      rw [ih (List.mem_append_right _ List.mem_cons_self), Res.bind_panic]

example : marshalMultiPtrs [some ⟨4, 5, [65]⟩, some ⟨6, 4, []⟩] = .ok [0, 4, 0, 5, 65, 0, 0, 0, 0, 6, 0, 4] ∧
    marshalMultiPtrs [some ⟨4, 5, [65]⟩, none] = .panic := by decide +kernel

theorem lastValue_none {n : PName} {qs : List (Nat × Bytes)} : Spec.lastValue n qs = none ↔ ∀ q ∈ qs, q.1 ≠ n.tag := by
  unfold Spec.lastValue
  rw [Option.map_eq_none_iff, List.getLast?_eq_none_iff, List.filter_eq_nil_iff]
  simp only [decide_eq_true_eq, ne_eq]

/-- C108: reading a parameter of a parsed message with its accessor (for the routing context and the affected point code: the one for all values) panics exactly if
the bytes do not have that parameter; the peer decides. Nothing else can go wrong, whatever the value. -/
theorem c108_missing (b : Bytes) (hb : 8 ≤ b.length) (k : Kind)
    (hk : k.cls * 16 + k.typ = ((b.getD 2 0).toNat * 16) % 256 ||| (b.getD 3 0).toNat)
    (qs : List (Nat × Bytes)) (hq : ParamSeq (b.drop 8) qs) (m : M3UA) (hm : M3UA.parse b = .ok m) (n : PName) (hn : n ∈ k.params) :
    (ParamPtr.call (Param.read n) (m.field n) = .panic ↔ ∀ q ∈ qs, q.1 ≠ n.tag) ∧
    ((∃ q ∈ qs, q.1 = n.tag) → (ParamPtr.call (Param.read n) (m.field n)).Returns) := by
  rcases c24_parse b hb k hk qs hq with ⟨-, m', hm', -, -, hf⟩ | ⟨-, e, he, -⟩
  · obtain rfl : m = m' := by
      rw [hm] at hm'
      cases hm'
      rfl
    have hn' := hf n hn
    cases hv : Spec.lastValue n qs with
    | none =>
      rw [hv] at hn'
      have hno := lastValue_none.mp hv
      exact ⟨⟨fun _ => hno, fun _ => by rw [hn']; rfl⟩, fun ⟨q, hq, h⟩ => absurd h (hno q hq)⟩
    | some v =>
      rw [hv] at hn'
      obtain ⟨p, hp, -⟩ := hn'
      have hr : (ParamPtr.call (Param.read n) (m.field n)).Returns := by
        rw [hp]
        exact Param.read_returns n p
      refine ⟨⟨fun h => ?_, fun h => ?_⟩, fun _ => hr⟩
      · rw [h] at hr
        rcases hr with ⟨a, ha⟩ | ⟨e, he⟩
        · cases ha
        · cases he
      · rw [lastValue_none.mpr h] at hv
        cases hv
  · rw [hm] at he
    cases he

/-- An ASP Active without a routing context. -/
example : ∃ m, M3UA.parse [1, 0, 4, 1, 0, 0, 0, 16, 0, 11, 0, 8, 0, 0, 0, 1] = .ok m ∧
    ParamPtr.call (Param.read .routingContext) (m.field .routingContext) = .panic ∧
    ParamPtr.call (Param.read .trafficModeType) (m.field .trafficModeType) = .ok () :=
  ⟨_, rfl, by decide +kernel⟩

/-- C108: for the accessors of the first value: they panic exactly if the bytes do not have the parameter or its last occurrence has no first value. -/
theorem c108_first (b : Bytes) (hb : 8 ≤ b.length) (k : Kind)
    (hk : k.cls * 16 + k.typ = ((b.getD 2 0).toNat * 16) % 256 ||| (b.getD 3 0).toNat)
    (qs : List (Nat × Bytes)) (hq : ParamSeq (b.drop 8) qs) (m : M3UA) (hm : M3UA.parse b = .ok m) :
    (.routingContext ∈ k.params → (ParamPtr.call Param.routingContext (m.field .routingContext) = .panic ↔
      ∀ v, Spec.lastValue .routingContext qs = some v → v.length = 0 ∨ v.length % 4 ≠ 0)) ∧
    (.affectedPointCode ∈ k.params → (ParamPtr.call Param.affectedPointCode (m.field .affectedPointCode) = .panic ↔
      ∀ v, Spec.lastValue .affectedPointCode qs = some v → v.length = 0 ∨ v.length % 4 ≠ 0)) := by
  rcases c24_parse b hb k hk qs hq with ⟨-, m', hm', -, -, hf⟩ | ⟨-, e, he, -⟩
  · obtain rfl : m = m' := by
      rw [hm] at hm'
      cases hm'
      rfl
    refine ⟨fun hn => ?_, fun hn => ?_⟩
    · have hn' := hf _ hn
      cases hv : Spec.lastValue .routingContext qs with
      | none =>
        rw [hv] at hn'
        rw [hn']
        exact ⟨fun _ v h => (nomatch h), fun _ => rfl⟩
      | some v =>
        rw [hv] at hn'
        obtain ⟨p, hp, ht, hd, -⟩ := hn'
        rw [hp, show ParamPtr.call Param.routingContext (some p) = p.routingContext from rfl, c10_routingContext, hd]
        exact ⟨fun h w hw => by cases hw; exact h.2, fun h => ⟨ht, h v rfl⟩⟩
    · have hn' := hf _ hn
      cases hv : Spec.lastValue .affectedPointCode qs with
      | none =>
        rw [hv] at hn'
        rw [hn']
        exact ⟨fun _ v h => (nomatch h), fun _ => rfl⟩
      | some v =>
        rw [hv] at hn'
        obtain ⟨p, hp, ht, hd, -⟩ := hn'
        rw [hp, show ParamPtr.call Param.affectedPointCode (some p) = p.affectedPointCode from rfl, c10_affectedPointCode, hd]
        exact ⟨fun h w hw => by cases hw; exact h.2, fun h => ⟨ht, h v rfl⟩⟩
  · rw [hm] at he
    cases he

/-- A DUNA with an affected point code of three bytes. -/
example : ∃ m, M3UA.parse [1, 0, 2, 1, 0, 0, 0, 16, 0, 18, 0, 7, 0, 0, 1, 0] = .ok m ∧
    ParamPtr.call Param.affectedPointCode (m.field .affectedPointCode) = .panic ∧
    ParamPtr.call (Param.read .affectedPointCode) (m.field .affectedPointCode) = .ok () :=
  ⟨_, rfl, by decide +kernel⟩

end M3
