import Verif.Model.HeldPayload
import Verif.Props.ParamValues

/-! Property C109: what `UnmarshalBinary` of a payload structure makes of a variable that already holds something. -/

set_option autoImplicit false

namespace M3.Spec

/-- What a field for the parameter `n` holds after the parameters `qs` have been stored over `old`: the last parameter named `n`, complete, or, if there
is none, what it held before. -/
def Updated (qs : List (Nat × List UInt8)) (n : PName) (old new : Option Param) : Prop :=
  match lastValue n qs with
  | some v => ∃ p, new = some p ∧ p.tag.toNat = n.tag ∧ p.data = v ∧ p.length.toNat = 4 + v.length
  | none => new = old

/-- The fields of a `RoutingKeyPayload` by name. -/
def routingKeyField (r : RoutingKeyPayload) : PName → Option Param
  | .localRoutingKeyIdentifier => r.localRoutingKeyIdentifier
  | .routingContext => r.routingContext
  | .trafficModeType => r.trafficModeType
  | .destinationPointCode => r.destinationPointCode
  | .networkAppearance => r.networkAppearance
  | .serviceIndicators => r.serviceIndicators
  | .originatingPointCodeList => r.originatingPointCodeList
  | _ => none

end M3.Spec

namespace M3

open Spec

/-- C109: a `ProtocolDataPayload` is replaced as a whole or, if there are fewer than twelve bytes, left as it is. -/
theorem c109_protocolData (b : Bytes) (p : ProtocolDataPayload) :
    (b.length < 12 ∧ p.unmarshalKept b = (p, .err .paramTooShortToParse)) ∨
    ∃ p', ProtocolDataPayload.parse b = .ok p' ∧ p.unmarshalKept b = (p', .ok ()) := by
  by_cases h : b.length < 12
  · exact .inl ⟨h, by rw [ProtocolDataPayload.unmarshalKept, if_pos h]⟩
  · right
    obtain ⟨o0, o1, o2, o3, r, rfl⟩ := Param.four_split b (by omega)
    obtain ⟨d0, d1, d2, d3, r, rfl⟩ := Param.four_split r (by simp at h; omega)
    obtain ⟨si, ni, mp, sls, d, rfl⟩ := Param.four_split r (by simp at h; omega)
    rcases c13_parse (o0 :: o1 :: o2 :: o3 :: d0 :: d1 :: d2 :: d3 :: si :: ni :: mp :: sls :: d) with ⟨hp, -⟩ | ⟨-, p', hp, -⟩
    · exact absurd hp h
    · refine ⟨p', hp, ?_⟩
      rw [ProtocolDataPayload.parse, if_neg h] at hp
      rw [ProtocolDataPayload.unmarshalKept, if_neg h]
      simp [rsub, getUint32, rindex, rfrom] at hp ⊢
      exact hp

theorem storeParams_append {pre : List Param} (h : ∀ p ∈ pre, ∃ n ∈ routingKeyMembers, p.tag.toNat = n.tag) :
    ∀ (r : RoutingKeyPayload) (post : List Param), ∃ r', r.setParams pre = .ok r' ∧ r.storeParams (pre ++ post) = r'.storeParams post := by
  induction pre with
  | nil => exact fun r post => ⟨r, rfl, rfl⟩
  | cons p ps ih =>
    intro r post
    obtain ⟨n, hn, ht⟩ := h p List.mem_cons_self
    have ih := ih fun q hq => h q (List.mem_cons_of_mem _ hq)
    have ht := (tag_ofNat n p.tag).mp ht
    simp only [routingKeyMembers, List.mem_cons, List.not_mem_nil, or_false] at hn
    rcases hn with rfl | rfl | rfl | rfl | rfl | rfl | rfl <;>
      (rw [List.cons_append, RoutingKeyPayload.storeParams, RoutingKeyPayload.setParams, RoutingKeyPayload.setParam, ht]
       exact ih _ post)

theorem storeParams_foreign {q : Param} (h : ∀ n ∈ routingKeyMembers, q.tag.toNat ≠ n.tag) (r : RoutingKeyPayload) (post : List Param) :
    r.storeParams (q :: post) = (r, .err .paramInvalidType) := by
  have hq : ∀ n ∈ routingKeyMembers, q.tag ≠ UInt16.ofNat n.tag := fun n hn e => h n hn ((tag_ofNat n q.tag).mpr e)
  simp only [routingKeyMembers, List.mem_cons, List.not_mem_nil, or_false, forall_eq_or_imp, forall_eq] at hq
  have hq : q.tag ≠ Tag.localRoutingKeyIdentifier ∧ q.tag ≠ Tag.routingContext ∧ q.tag ≠ Tag.trafficModeType ∧
    q.tag ≠ Tag.destinationPointCode ∧ q.tag ≠ Tag.networkAppearance ∧ q.tag ≠ Tag.serviceIndicators ∧
    q.tag ≠ Tag.originatingPointCodeList := hq
  obtain ⟨h1, h2, h3, h4, h5, h6, h7⟩ := hq
  rw [RoutingKeyPayload.storeParams, if_neg h1, if_neg h2, if_neg h3, if_neg h4, if_neg h5, if_neg h6, if_neg h7]

theorem updated {ps : List Param} (hc : ∀ p ∈ ps, p.length.toNat = 4 + p.data.length) (n : PName) (old : Option Param) :
    Updated (ps.map fun p => (p.tag.toNat, p.data)) n old ((lastWith (UInt16.ofNat n.tag) ps).or old) := by
  rw [Updated, ← lastWith_value]
  cases hl : lastWith (UInt16.ofNat n.tag) ps with
  | none => exact rfl
  | some p =>
    have h1 := List.mem_filter.mp (List.mem_of_getLast? hl)
    refine ⟨p, rfl, ?_, rfl, hc p h1.1⟩
    exact (tag_ofNat n p.tag).mpr (by simpa using h1.2)

theorem setParams_updated {ps : List Param} (hc : ∀ p ∈ ps, p.length.toNat = 4 + p.data.length)
    (h : ∀ p ∈ ps, ∃ n ∈ routingKeyMembers, p.tag.toNat = n.tag) {r r' : RoutingKeyPayload} (hr : r.setParams ps = .ok r') :
    ∀ n ∈ routingKeyMembers, Updated (ps.map fun p => (p.tag.toNat, p.data)) n (routingKeyField r n) (routingKeyField r' n) := by
  rw [setParams_ok ps r h] at hr
  cases hr
  simp only [routingKeyMembers, List.mem_cons, List.not_mem_nil, or_false, forall_eq_or_imp, forall_eq]
  exact ⟨updated hc _ _, updated hc _ _, updated hc _ _, updated hc _ _, updated hc _ _, updated hc _ _, updated hc _ _⟩

/-- C109: a `RoutingKeyPayload` that is decoded into: with fewer than three parameters nothing changes. Otherwise each field whose parameter occurs gets the
last one, and each of the others keeps what it held before; this is so up to the first parameter that does not belong there, at which the call fails. -/
theorem c109_routingKey (b : Bytes) (r : RoutingKeyPayload) (qs : List (Nat × Bytes)) (hq : ParamSeq b qs) :
    (qs.length < 3 → r.unmarshalKept b = (r, .err .paramInvalidLength)) ∧
    (3 ≤ qs.length → (∀ q ∈ qs, ∃ n ∈ routingKeyMembers, q.1 = n.tag) →
      ∃ r', r.unmarshalKept b = (r', .ok ()) ∧ ∀ n ∈ routingKeyMembers, Updated qs n (routingKeyField r n) (routingKeyField r' n)) ∧
    (3 ≤ qs.length → ∀ pre q post, qs = pre ++ q :: post → (∀ x ∈ pre, ∃ n ∈ routingKeyMembers, x.1 = n.tag) →
      (∀ n ∈ routingKeyMembers, q.1 ≠ n.tag) →
      ∃ r', r.unmarshalKept b = (r', .err .paramInvalidType) ∧
        ∀ n ∈ routingKeyMembers, Updated pre n (routingKeyField r n) (routingKeyField r' n)) := by
  obtain ⟨ps, hp, rfl⟩ := seq_parse hq
  have hc := parseMulti_consistent hp
  simp only [List.length_map, RoutingKeyPayload.unmarshalKept, hp]
  refine ⟨fun h => if_pos h, fun h hm => ?_, fun h pre q post e hpre hf => ?_⟩
  · have hm : ∀ p ∈ ps, ∃ n ∈ routingKeyMembers, p.tag.toNat = n.tag := fun p hp => hm _ (List.mem_map.mpr ⟨p, hp, rfl⟩)
    obtain ⟨r', h1, h2⟩ := storeParams_append hm r []
    rw [List.append_nil] at h2
    exact ⟨r', by rw [if_neg (by omega), h2]; rfl, setParams_updated hc hm h1⟩
  · obtain ⟨l₁, l₂, rfl, rfl, e2⟩ := List.map_eq_append_iff.mp e
    obtain ⟨a, l₃, rfl, rfl, rfl⟩ := List.map_eq_cons_iff.mp e2
    have hm : ∀ p ∈ l₁, ∃ n ∈ routingKeyMembers, p.tag.toNat = n.tag := fun p hp => hpre _ (List.mem_map.mpr ⟨p, hp, rfl⟩)
    obtain ⟨r', h1, h2⟩ := storeParams_append hm r (a :: l₃)
    exact ⟨r', by rw [if_neg (by omega), h2, storeParams_foreign hf], setParams_updated (fun p hp => hc p (by simp [hp])) hm h1⟩

/-- C109: a `RegistrationResultPayload` is replaced as a whole, by position, or left as it is. -/
theorem c109_registrationResult (b : Bytes) (d : RegistrationResultPayload) (qs : List (Nat × Bytes)) (hq : ParamSeq b qs) :
    (qs.length ≠ 3 ∧ d.unmarshalKept b = (d, .err .paramInvalidLength)) ∨
    ∃ x y z : Param, qs = [(x.tag.toNat, x.data), (y.tag.toNat, y.data), (z.tag.toNat, z.data)] ∧
      d.unmarshalKept b = (⟨some x, some y, some z⟩, .ok ()) := by
  obtain ⟨ps, hp, rfl⟩ := seq_parse hq
  simp only [List.length_map, RegistrationResultPayload.unmarshalKept, hp]
  by_cases hl : ps.length = 3
  · match ps, hl with
    | [x, y, z], _ => exact .inr ⟨x, y, z, rfl, rfl⟩
  · exact .inl ⟨hl, by rw [if_pos hl]⟩

theorem foldl_dereg (ps : List Param) (d : DeregResultPayload) : ps.foldl DeregResultPayload.setParam d =
    ⟨(lastWith Tag.routingContext ps).or d.routingContext, (lastWith Tag.deregistrationStatus ps).or d.deregistrationStatus⟩ := by
  induction ps generalizing d with
  | nil => rfl
  | cons q qs ih =>
    rw [List.foldl_cons, ih]
    simp only [lastWith_cons, DeregResultPayload.setParam]
    by_cases h1 : q.tag = Tag.routingContext
    · rw [if_pos h1, if_pos h1, if_neg (by rw [h1]; decide)]
      simp
    · rw [if_neg h1, if_neg h1]
      by_cases h2 : q.tag = Tag.deregistrationStatus
      · rw [if_pos h2, if_pos h2]
        simp
      · rw [if_neg h2, if_neg h2]
        simp

/-- C109: a `DeregResultPayload` keeps a field whose parameter is missing, although the call reports success. -/
theorem c109_deregistrationResult (b : Bytes) (d : DeregResultPayload) (qs : List (Nat × Bytes)) (hq : ParamSeq b qs) :
    (qs.length ≠ 2 ∧ d.unmarshalKept b = (d, .err .paramInvalidLength)) ∨
    (qs.length = 2 ∧ ∃ d', d.unmarshalKept b = (d', .ok ()) ∧ Updated qs .routingContext d.routingContext d'.routingContext ∧
      Updated qs .deregistrationStatus d.deregistrationStatus d'.deregistrationStatus) := by
  obtain ⟨ps, hp, rfl⟩ := seq_parse hq
  have hc := parseMulti_consistent hp
  simp only [List.length_map, DeregResultPayload.unmarshalKept, hp]
  by_cases hl : ps.length = 2
  · refine .inr ⟨hl, _, by rw [if_neg (by simpa using hl)], ?_⟩
    rw [foldl_dereg]
    exact ⟨updated hc _ _, updated hc _ _⟩
  · exact .inl ⟨hl, by rw [if_pos hl]⟩

/-- C109: if the bytes are no parameters, all three fail and change nothing. -/
theorem c109_malformed (b : Bytes) (hq : ∀ qs, ¬ ParamSeq b qs) :
    ∃ e, parseMultiParams b = .err e ∧ (∀ r : RoutingKeyPayload, r.unmarshalKept b = (r, .err e)) ∧
      (∀ d : RegistrationResultPayload, d.unmarshalKept b = (d, .err e)) ∧ ∀ d : DeregResultPayload, d.unmarshalKept b = (d, .err e) := by
  have h : ∃ e, parseMultiParams b = .err e := by
    rcases c04_total b with ⟨ps, h⟩ | h | h
    · exact absurd (paramSeq_of_parse h) (hq _)
    · exact ⟨_, h⟩
    · exact ⟨_, h⟩
  obtain ⟨e, h⟩ := h
  exact ⟨e, h, fun r => by rw [RoutingKeyPayload.unmarshalKept, h], fun d => by rw [RegistrationResultPayload.unmarshalKept, h],
    fun d => by rw [DeregResultPayload.unmarshalKept, h]⟩

/-- C109: so a variable that is used again mixes two routing keys: decoding the same bytes into it gives another key than `ParseRoutingKeyPayload`, and
what is made of it, with `NewRoutingKey`, is not what was received; both report success. -/
theorem c109_mixed : ∃ (b : Bytes) (r r' k : RoutingKeyPayload) (p p' : Param), r.unmarshalKept b = (r', .ok ()) ∧ RoutingKeyPayload.parse b = .ok k ∧
    k.networkAppearance = none ∧ r'.networkAppearance = r.networkAppearance ∧ r.networkAppearance ≠ none ∧
    Param.newRoutingKey k = .ok p ∧ p.data = b ∧ Param.newRoutingKey r' = .ok p' ∧ p'.data ≠ b :=
  ⟨[2, 0xa, 0, 8, 0, 0, 0, 1, 0, 6, 0, 8, 0, 0, 0, 2, 2, 0xb, 0, 8, 0, 0, 0, 9], ⟨none, none, none, none, some ⟨0x200, 8, [0, 0, 0, 5]⟩, none, none⟩,
    ⟨some ⟨0x20a, 8, [0, 0, 0, 1]⟩, some ⟨6, 8, [0, 0, 0, 2]⟩, none, some ⟨0x20b, 8, [0, 0, 0, 9]⟩, some ⟨0x200, 8, [0, 0, 0, 5]⟩, none, none⟩,
    ⟨some ⟨0x20a, 8, [0, 0, 0, 1]⟩, some ⟨6, 8, [0, 0, 0, 2]⟩, none, some ⟨0x20b, 8, [0, 0, 0, 9]⟩, none, none, none⟩,
    ⟨0x207, 28, [2, 0xa, 0, 8, 0, 0, 0, 1, 0, 6, 0, 8, 0, 0, 0, 2, 2, 0xb, 0, 8, 0, 0, 0, 9]⟩,
    ⟨0x207, 36, [2, 0xa, 0, 8, 0, 0, 0, 1, 0, 6, 0, 8, 0, 0, 0, 2, 2, 0xb, 0, 8, 0, 0, 0, 9, 2, 0, 0, 8, 0, 0, 0, 5]⟩, by decide +kernel⟩

/-- C109: an empty variable gets what the functions `ParseXxx` return. -/
theorem c109_fresh (b : Bytes) :
    (∀ r, RoutingKeyPayload.parse b = .ok r → RoutingKeyPayload.unmarshalKept b ⟨none, none, none, none, none, none, none⟩ = (r, .ok ())) ∧
    (∀ d, RegistrationResultPayload.parse b = .ok d → RegistrationResultPayload.unmarshalKept b ⟨none, none, none⟩ = (d, .ok ())) ∧
    ∀ d, DeregResultPayload.parse b = .ok d → DeregResultPayload.unmarshalKept b ⟨none, none⟩ = (d, .ok ()) := by
  refine ⟨fun r h => ?_, fun d h => ?_, fun d h => ?_⟩
  · rw [RoutingKeyPayload.parse, RoutingKeyPayload.unmarshalBinary] at h
    cases hp : parseMultiParams b with
    | ok ps =>
      rw [hp, Res.bind_ok] at h
      split at h
      · cases h
      · rename_i hl
        have hm : ∀ p ∈ ps, ∃ n ∈ routingKeyMembers, p.tag.toNat = n.tag := fun p hq => by
          apply Classical.byContradiction
          intro hn
          rw [setParams_foreign ps _ ⟨p, hq, fun n hn' he => hn ⟨n, hn', he⟩⟩] at h
          cases h
        obtain ⟨r', h1, h2⟩ := storeParams_append hm ⟨none, none, none, none, none, none, none⟩ []
        rw [List.append_nil] at h2
        rw [h1] at h
        cases h
        rw [RoutingKeyPayload.unmarshalKept, hp]
        simp only
        rw [if_neg hl, h2]
        rfl
    | _ => rw [hp] at h; cases h
  · rw [RegistrationResultPayload.parse, RegistrationResultPayload.unmarshalBinary] at h
    cases hp : parseMultiParams b with
    | ok ps =>
      rw [hp, Res.bind_ok] at h
      split at h
      · cases h
      · rename_i hl
        match ps, Decidable.not_not.mp hl with
        | [x, y, z], _ =>
          cases h
          rw [RegistrationResultPayload.unmarshalKept, hp]
          rfl
    | _ => rw [hp] at h; cases h
  · rw [DeregResultPayload.parse, DeregResultPayload.unmarshalBinary] at h
    cases hp : parseMultiParams b with
    | ok ps =>
      rw [hp, Res.bind_ok] at h
      split at h
      · cases h
      · rename_i hl
        cases h
        rw [DeregResultPayload.unmarshalKept, hp]
        simp only
        rw [if_neg hl]
    | _ => rw [hp] at h; cases h

/-- A Deregistration Result without status (two Routing Contexts) into a variable that holds one: the old status stays, and there is no error. -/
example : DeregResultPayload.unmarshalKept [0, 6, 0, 8, 0, 0, 0, 1, 0, 6, 0, 8, 0, 0, 0, 2] ⟨some ⟨6, 8, [0, 0, 0, 9]⟩, some ⟨0x213, 8, [0, 0, 0, 0]⟩⟩ =
    (⟨some ⟨6, 8, [0, 0, 0, 2]⟩, some ⟨0x213, 8, [0, 0, 0, 0]⟩⟩, .ok ()) := by decide +kernel

/-- For the third part of `c109_routingKey`: an INFO String as the second of three parameters. The first one has been stored, the third one has not. -/
example : RoutingKeyPayload.unmarshalKept [2, 0xa, 0, 8, 0, 0, 0, 1, 0, 4, 0, 8, 1, 2, 3, 4, 0, 6, 0, 8, 0, 0, 0, 2]
      ⟨none, none, none, none, some ⟨0x200, 8, [0, 0, 0, 5]⟩, none, none⟩ =
    (⟨some ⟨0x20a, 8, [0, 0, 0, 1]⟩, none, none, none, some ⟨0x200, 8, [0, 0, 0, 5]⟩, none, none⟩, .err .paramInvalidType) ∧
    ∃ qs, ParamSeq [2, 0xa, 0, 8, 0, 0, 0, 1, 0, 4, 0, 8, 1, 2, 3, 4, 0, 6, 0, 8, 0, 0, 0, 2] qs :=
  ⟨by decide +kernel, (c05_accept_iff _).mp ⟨[⟨0x20a, 8, [0, 0, 0, 1]⟩, ⟨4, 8, [1, 2, 3, 4]⟩, ⟨6, 8, [0, 0, 0, 2]⟩], by decide⟩⟩

/-- For `c109_registrationResult` and `c109_malformed`. -/
example : (∃ qs, ParamSeq [0, 4, 0, 8, 0, 0, 0, 1, 0, 4, 0, 8, 0, 0, 0, 2, 0, 4, 0, 8, 1, 2, 3, 4] qs) ∧ ∀ qs, ¬ ParamSeq [0, 4, 0] qs :=
  ⟨(c05_accept_iff _).mp ⟨[⟨4, 8, [0, 0, 0, 1]⟩, ⟨4, 8, [0, 0, 0, 2]⟩, ⟨4, 8, [1, 2, 3, 4]⟩], by decide⟩, fun qs h => by
    obtain ⟨ps, hp⟩ := (c05_accept_iff _).mpr ⟨qs, h⟩
    rw [show parseMultiParams [0, 4, 0] = .err .paramTooShortToParse by decide +kernel] at hp
    cases hp⟩

end M3
