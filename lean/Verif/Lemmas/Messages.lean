import Verif.Lemmas.MsgInst
import Verif.Lemmas.ParamKinds

/-! Lifting of the `Codec` lemmas to the interface type `M3UA`, and lemmas about `Generic`. -/

namespace M3

open Msg

/-- `m.MarshalBinary()` returns `bs` (and a nil error). -/
def M3UA.Encodes (m : M3UA) (bs : Bytes) : Prop := ∃ m', m.marshalBinary = .ok (m', bs)

/-- Tag and value of a parameter, as the specification sees it. -/
def tv (o : Option Param) : Option (Nat × Bytes) := o.map fun p => (p.tag.toNat, p.data)

/-- `inj` embeds the message type `M` as the messages of kind `k`. -/
structure View (k : Spec.Kind) (M : Type) [Codec M] (inj : M → M3UA) : Prop where
  inj_inj : ∀ {a b}, inj a = inj b → a = b
  kind : ∀ y, (inj y).kind = some k
  header : ∀ y, (inj y).header = Codec.hdr y
  marshalLen : ∀ y, (inj y).marshalLen = Codec.marshalLen y
  marshalTo : ∀ y b, (inj y).marshalTo b = (Codec.marshalTo y b >>= fun r => .ok (inj r.1, r.2))
  marshalBinary : ∀ y, (inj y).marshalBinary =
    (Codec.marshalBinary y >>= fun r => .ok (inj r.1, r.2))
  unmarshalBinary : ∀ y b, (inj y).unmarshalBinary b =
    (Codec.unmarshalBinary y b >>= fun m => .ok (inj m))
  flds : ∀ y, k.params.map (inj y).field = Codec.flds y
  field_other : ∀ y n, n ∉ k.params → (inj y).field n = none
  tags : Codec.tags M = k.params.map fun n => UInt16.ofNat n.tag
  unused : ∀ y, (inj y).unusedField = Codec.aux y
  bad : (Codec.bad M).root = .msgInvalidParameter
  surj : ∀ m : M3UA, m.kind = some k → ∃ y, m = inj y

macro "view_tac" : tactic => `(tactic| exact {
  inj_inj := by intro a b h; cases h; rfl
  kind := fun _ => rfl
  header := fun _ => rfl
  marshalLen := fun _ => rfl
  marshalTo := fun _ _ => rfl
  marshalBinary := fun _ => rfl
  unmarshalBinary := fun _ _ => rfl
  flds := fun _ => rfl
  field_other := by intro y n; cases n <;> simp [Spec.Kind.params, M3UA.field]
  tags := rfl
  unused := fun _ => rfl
  bad := rfl
  surj := by intro m hm; cases m <;> first | exact ⟨_, rfl⟩ | (simp [M3UA.kind] at hm) })

theorem view_error : View .error Error M3UA.error := by view_tac
theorem view_notify : View .notify Notify M3UA.notify := by view_tac
theorem view_data : View .data Data M3UA.data := by view_tac
theorem view_duna : View .duna DestinationUnavailable M3UA.duna := by view_tac
theorem view_dava : View .dava DestinationAvailable M3UA.dava := by view_tac
theorem view_daud : View .daud DestinationStateAudit M3UA.daud := by view_tac
theorem view_scon : View .scon SignallingCongestion M3UA.scon := by view_tac
theorem view_dupu : View .dupu DestinationUserPartUnavailable M3UA.dupu := by view_tac
theorem view_drst : View .drst DestinationRestricted M3UA.drst := by view_tac
theorem view_aspUp : View .aspUp AspUp M3UA.aspUp := by view_tac
theorem view_aspDown : View .aspDown AspDown M3UA.aspDown := by view_tac
theorem view_heartbeat : View .heartbeat Heartbeat M3UA.heartbeat := by view_tac
theorem view_aspUpAck : View .aspUpAck AspUpAck M3UA.aspUpAck := by view_tac
theorem view_aspDownAck : View .aspDownAck AspDownAck M3UA.aspDownAck := by view_tac
theorem view_heartbeatAck : View .heartbeatAck HeartbeatAck M3UA.heartbeatAck := by view_tac
theorem view_aspActive : View .aspActive AspActive M3UA.aspActive := by view_tac
theorem view_aspInactive : View .aspInactive AspInactive M3UA.aspInactive := by view_tac
theorem view_aspActiveAck : View .aspActiveAck AspActiveAck M3UA.aspActiveAck := by view_tac
theorem view_aspInactiveAck : View .aspInactiveAck AspInactiveAck M3UA.aspInactiveAck := by view_tac

/-- The empty message that `Parse` starts from. -/
def M3UA.empty : Option Spec.Kind → M3UA
  | none => .generic Generic.zero
  | some .error => .error Error.zero
  | some .notify => .notify Notify.zero
  | some .data => .data Data.zero
  | some .duna => .duna DestinationUnavailable.zero
  | some .dava => .dava DestinationAvailable.zero
  | some .daud => .daud DestinationStateAudit.zero
  | some .scon => .scon SignallingCongestion.zero
  | some .dupu => .dupu DestinationUserPartUnavailable.zero
  | some .drst => .drst DestinationRestricted.zero
  | some .aspUp => .aspUp AspUp.zero
  | some .aspDown => .aspDown AspDown.zero
  | some .heartbeat => .heartbeat Heartbeat.zero
  | some .aspUpAck => .aspUpAck AspUpAck.zero
  | some .aspDownAck => .aspDownAck AspDownAck.zero
  | some .heartbeatAck => .heartbeatAck HeartbeatAck.zero
  | some .aspActive => .aspActive AspActive.zero
  | some .aspInactive => .aspInactive AspInactive.zero
  | some .aspActiveAck => .aspActiveAck AspActiveAck.zero
  | some .aspInactiveAck => .aspInactiveAck AspInactiveAck.zero

/-- Every kind has a view. -/
theorem exists_view (k : Spec.Kind) :
    ∃ (M : Type) (C : Codec M) (inj : M → M3UA), View k M inj ∧ M3UA.empty (some k) = inj C.zero := by
  cases k
  · exact ⟨_, _, _, view_error, rfl⟩
  · exact ⟨_, _, _, view_notify, rfl⟩
  · exact ⟨_, _, _, view_data, rfl⟩
  · exact ⟨_, _, _, view_duna, rfl⟩
  · exact ⟨_, _, _, view_dava, rfl⟩
  · exact ⟨_, _, _, view_daud, rfl⟩
  · exact ⟨_, _, _, view_scon, rfl⟩
  · exact ⟨_, _, _, view_dupu, rfl⟩
  · exact ⟨_, _, _, view_drst, rfl⟩
  · exact ⟨_, _, _, view_aspUp, rfl⟩
  · exact ⟨_, _, _, view_aspDown, rfl⟩
  · exact ⟨_, _, _, view_heartbeat, rfl⟩
  · exact ⟨_, _, _, view_aspUpAck, rfl⟩
  · exact ⟨_, _, _, view_aspDownAck, rfl⟩
  · exact ⟨_, _, _, view_heartbeatAck, rfl⟩
  · exact ⟨_, _, _, view_aspActive, rfl⟩
  · exact ⟨_, _, _, view_aspInactive, rfl⟩
  · exact ⟨_, _, _, view_aspActiveAck, rfl⟩
  · exact ⟨_, _, _, view_aspInactiveAck, rfl⟩

/-! ### Generic -/

namespace Msg.Generic

theorem foldl_len (ps : List Param) : ∀ l, ps.foldl (fun l pr => l + pr.marshalLen) l
    = l + (ps.flatMap Param.encode).length := by
  induction ps with
  | nil => intro l; rfl
  | cons p ps ih => intro l; simp [ih, p.encode_length]; omega

theorem body_map_some (ps : List Param) : body (ps.map some) = ps.flatMap Param.encode := by
  induction ps with
  | nil => rfl
  | cons p ps ih => simp [ih]

theorem marshalLen_eq (g : Generic) : g.marshalLen = 8 + (g.params.flatMap Param.encode).length :=
  foldl_len _ _

theorem putAll_eq (ps : List Param) : ∀ (s : Slice) (o : Nat),
    putAll s o ps = (putParams s o (ps.map some) >>= fun r => .ok r.1) := by
  induction ps with
  | nil => intro s o; rfl
  | cons p ps ih =>
    intro s o
    simp only [putAll, List.map_cons, putParams, putParam]
    cases s.from' o with
    | ok s' =>
      simp only [Res.bind_ok]
      cases p.marshalTo s' with
      | ok mem => simp only [Res.bind_ok, Res.pure_eq, ih]
      | err e => rfl
      | panic => rfl
      | diverge => rfl
    | err e => rfl
    | panic => rfl
    | diverge => rfl

/-- The generic message after marshalling: the payload is cached. -/
def cached (g : Generic) : Generic :=
  { g with header := { g.header with payload := g.params.flatMap Param.encode } }

theorem marshalTo_exact (g : Generic) (b : Slice) (hb : b.WF) : g.marshalTo b =
    if b.len < g.marshalLen then .err .msgTooShortToMarshal else
    .ok (g.cached, writeAt b.mem b.off (g.header.head ++ g.params.flatMap Param.encode)) := by
  unfold marshalTo
  split
  · rfl
  · rename_i h
    have hl : g.marshalLen - 8 = (body (g.params.map some)).length := by
      rw [marshalLen_eq, body_map_some]; omega
    rw [hl, putAll_eq, putParams_make]
    simp only [Res.bind_ok, Slice.bytes, List.drop_zero, List.take_length, body_map_some]
    rw [Header.marshalTo_eq _ _ hb, if_neg]
    · rfl
    · simp only [Header.marshalLen]; rw [marshalLen_eq] at h; exact h

theorem marshalBinary_exact (g : Generic) : g.marshalBinary =
    .ok (g.cached, g.header.head ++ g.params.flatMap Param.encode) := by
  show (g.marshalTo (Slice.make g.marshalLen) >>= fun r =>
    Res.ok (r.1, { Slice.make g.marshalLen with mem := r.2 }.bytes)) = _
  rw [marshalTo_exact _ _ (by simp [Slice.WF, Slice.make]), if_neg (by simp [Slice.make])]
  simp only [Res.bind_ok, Slice.make, Slice.bytes]
  rw [Param.writeAt_replicate_zero, marshalLen_eq, List.drop_zero, List.take_of_length_le (by simp)]
  simp

end Msg.Generic

/-! ### The interface type -/

namespace M3UA

/-- All parameters in wire order. -/
def wireParams : M3UA → List Param
  | .generic g => g.params
  | m => present ((m.kind.map Spec.Kind.params |>.getD []).map m.field)

theorem wireParams_typed {m : M3UA} {k : Spec.Kind} (hk : m.kind = some k) :
    m.wireParams = present (k.params.map m.field) := by
  cases m <;> first | (simp only [kind, Option.some.injEq] at hk; subst hk; rfl) | (simp [kind] at hk)

/-- The message with another cached payload. -/
def withHeader (h : Header) : M3UA → M3UA
  | .error m => .error { m with header := h }
  | .notify m => .notify { m with header := h }
  | .data m => .data { m with header := h }
  | .duna m => .duna { m with header := h }
  | .dava m => .dava { m with header := h }
  | .daud m => .daud { m with header := h }
  | .scon m => .scon { m with header := h }
  | .dupu m => .dupu { m with header := h }
  | .drst m => .drst { m with header := h }
  | .aspUp m => .aspUp { m with header := h }
  | .aspDown m => .aspDown { m with header := h }
  | .heartbeat m => .heartbeat { m with header := h }
  | .aspUpAck m => .aspUpAck { m with header := h }
  | .aspDownAck m => .aspDownAck { m with header := h }
  | .heartbeatAck m => .heartbeatAck { m with header := h }
  | .aspActive m => .aspActive { m with header := h }
  | .aspInactive m => .aspInactive { m with header := h }
  | .aspActiveAck m => .aspActiveAck { m with header := h }
  | .aspInactiveAck m => .aspInactiveAck { m with header := h }
  | .generic m => .generic { m with header := h }

/-- The generic parameter list. -/
def genericParams : M3UA → List Param
  | .generic g => g.params
  | _ => []

@[simp] theorem header_withHeader (h : Header) (m : M3UA) : (m.withHeader h).header = h := by
  cases m <;> rfl
@[simp] theorem kind_withHeader (h : Header) (m : M3UA) : (m.withHeader h).kind = m.kind := by
  cases m <;> rfl
@[simp] theorem field_withHeader (h : Header) (m : M3UA) (n : Spec.PName) :
    (m.withHeader h).field n = m.field n := by
  cases m <;> cases n <;> rfl
@[simp] theorem unused_withHeader (h : Header) (m : M3UA) :
    (m.withHeader h).unusedField = m.unusedField := by
  cases m <;> rfl
@[simp] theorem genericParams_withHeader (h : Header) (m : M3UA) :
    (m.withHeader h).genericParams = m.genericParams := by
  cases m <;> rfl
@[simp] theorem withHeader_withHeader (h h' : Header) (m : M3UA) :
    (m.withHeader h).withHeader h' = m.withHeader h' := by
  cases m <;> rfl
@[simp] theorem wireParams_withHeader (h : Header) (m : M3UA) :
    (m.withHeader h).wireParams = m.wireParams := by
  cases m <;> rfl

/-- Messages are determined by kind, header, fields, unused field and generic parameters. -/
theorem ext' {a b : M3UA} (hk : a.kind = b.kind) (hh : a.header = b.header)
    (hf : ∀ n, a.field n = b.field n) (hu : a.unusedField = b.unusedField)
    (hg : a.genericParams = b.genericParams) : a = b := by
  cases hka : a.kind with
  | none =>
    have hkb := hka ▸ hk
    cases a <;> simp [kind] at hka
    cases b <;> simp [kind] at hkb
    rename_i x y
    cases x; cases y
    simp_all [header, genericParams]
  | some k =>
    obtain ⟨M, C, inj, v, _⟩ := exists_view k
    obtain ⟨x, rfl⟩ := v.surj a hka
    obtain ⟨y, rfl⟩ := v.surj b (hk ▸ hka)
    congr 1
    apply C.ext
    · rw [← v.header, ← v.header, hh]
    · rw [← v.flds, ← v.flds]
      exact List.map_congr_left fun n _ => hf n
    · rw [← v.unused, ← v.unused, hu]

theorem view_setHdr {k : Spec.Kind} {M : Type} [C : Codec M] {inj : M → M3UA} (v : View k M inj)
    (y : M) (h : Header) : inj (C.setHdr y h) = (inj y).withHeader h := by
  apply ext'
  · rw [v.kind, kind_withHeader, v.kind]
  · rw [v.header, Codec.hdr_setHdr, header_withHeader]
  · intro n
    rw [field_withHeader]
    by_cases hn : n ∈ k.params
    · have h1 := v.flds (C.setHdr y h)
      rw [Codec.flds_setHdr, ← v.flds y] at h1
      obtain ⟨i, hi, rfl⟩ := List.mem_iff_getElem.mp hn
      have := congrArg (fun l => l[i]?) h1
      simpa [hi] using this
    · rw [v.field_other _ _ hn, v.field_other _ _ hn]
  · rw [v.unused, Codec.aux_setHdr, unused_withHeader, v.unused]
  · have e : ∀ m : M3UA, m.kind = some k → m.genericParams = [] := by
      intro m hm; cases m <;> first | rfl | (simp [kind] at hm)
    rw [e _ (v.kind _), e _ (by rw [kind_withHeader, v.kind])]

/-- The bytes of the parameters. -/
def bodyBytes (m : M3UA) : Bytes := m.wireParams.flatMap Param.encode

/-- The message after marshalling: the payload is cached. -/
def cached (m : M3UA) : M3UA := m.withHeader { m.header with payload := m.bodyBytes }

theorem marshalLen_eq (m : M3UA) : m.marshalLen = 8 + m.bodyBytes.length := by
  cases hk : m.kind with
  | none =>
    cases m <;> simp [kind] at hk
    exact Generic.marshalLen_eq _
  | some k =>
    obtain ⟨M, C, inj, v, _⟩ := exists_view k
    obtain ⟨x, rfl⟩ := v.surj m hk
    rw [v.marshalLen, Codec.marshalLen_body, bodyBytes, wireParams_typed hk, v.flds]
    rfl

theorem marshalTo_exact (m : M3UA) (b : Slice) (hb : b.WF) : m.marshalTo b =
    if b.len < m.marshalLen then .err .msgTooShortToMarshal else
    .ok (m.cached, writeAt b.mem b.off (m.header.head ++ m.bodyBytes)) := by
  cases hk : m.kind with
  | none =>
    cases m <;> simp [kind] at hk
    rename_i g
    simp only [marshalTo, Generic.marshalTo_exact g b hb, marshalLen]
    by_cases h : b.len < g.marshalLen
    · simp only [h, if_true]; rfl
    · simp only [h, if_false]; rfl
  | some k =>
    obtain ⟨M, C, inj, v, _⟩ := exists_view k
    obtain ⟨x, rfl⟩ := v.surj m hk
    have hw : (inj x).bodyBytes = body (C.flds x) := by
      rw [bodyBytes, wireParams_typed hk, v.flds]; rfl
    rw [v.marshalTo, Codec.marshalTo_exact _ _ hb, v.marshalLen, cached, hw, v.header]
    split
    · rfl
    · simp only [Res.bind_ok, view_setHdr v]

theorem marshalBinary_exact (m : M3UA) :
    m.marshalBinary = .ok (m.cached, m.header.head ++ m.bodyBytes) := by
  cases hk : m.kind with
  | none =>
    cases m <;> simp [kind] at hk
    rename_i g
    simp only [marshalBinary, Generic.marshalBinary_exact g]
    rfl
  | some k =>
    obtain ⟨M, C, inj, v, _⟩ := exists_view k
    obtain ⟨x, rfl⟩ := v.surj m hk
    have hw : (inj x).bodyBytes = body (C.flds x) := by
      rw [bodyBytes, wireParams_typed hk, v.flds]; rfl
    rw [v.marshalBinary, Codec.marshalBinary_exact, cached, hw, v.header]
    simp only [Res.bind_ok, view_setHdr v]

theorem encodes_iff {m : M3UA} {bs : Bytes} : m.Encodes bs ↔ bs = m.header.head ++ m.bodyBytes := by
  rw [Encodes, marshalBinary_exact]
  constructor
  · rintro ⟨_, h⟩; cases h; rfl
  · rintro rfl; exact ⟨_, rfl⟩

/-! ### Parsing -/

/-- The kind selected by class and type bytes. -/
def selected (c t : UInt8) : Option Spec.Kind :=
  Spec.Kind.all.find? fun k => k.cls * 16 + k.typ = (c.toNat * 16) % 256 ||| t.toNat

theorem combine_toNat (c t : UInt8) : (combine c t).toNat = (c.toNat * 16) % 256 ||| t.toNat := by
  have : c.toNat <<< 4 = c.toNat * 16 := Nat.shiftLeft_eq ..
  simp only [combine, UInt8.toNat_toUInt16, UInt8.toNat_or, UInt8.toNat_shiftLeft]
  have h4 : (4 : UInt8).toNat % 8 = 4 := rfl
  rw [h4, this]

theorem select_eq (c t : UInt8) : select (combine c t) = empty (selected c t) := by
  have hc := combine_toNat c t
  simp only [selected, ← hc]
  generalize combine c t = x
  simp only [select,
    show combine 1 1 = 17 from rfl, show combine 2 1 = 33 from rfl,
    show combine 2 2 = 34 from rfl, show combine 2 3 = 35 from rfl, show combine 2 4 = 36 from rfl,
    show combine 2 5 = 37 from rfl, show combine 2 6 = 38 from rfl, show combine 3 1 = 49 from rfl,
    show combine 3 2 = 50 from rfl, show combine 3 3 = 51 from rfl, show combine 3 4 = 52 from rfl,
    show combine 3 5 = 53 from rfl, show combine 3 6 = 54 from rfl, show combine 4 1 = 65 from rfl,
    show combine 4 2 = 66 from rfl, show combine 4 3 = 67 from rfl, show combine 4 4 = 68 from rfl,
    show combine 0 0 = 0 from rfl, show combine 0 1 = 1 from rfl]
  by_cases h : x ∈ [(17 : UInt16), 33, 34, 35, 36, 37, 38, 49, 50, 51, 52, 53, 54, 65, 66, 67, 68, 0, 1]
  · simp only [List.mem_cons, List.not_mem_nil, or_false] at h
    rcases h with rfl | rfl | rfl | rfl | rfl | rfl | rfl | rfl | rfl | rfl | rfl | rfl | rfl | rfl |
      rfl | rfl | rfl | rfl | rfl <;> rfl
  · simp only [List.mem_cons, List.not_mem_nil, or_false, not_or] at h
    obtain ⟨h1, h2, h3, h4, h5, h6, h7, h8, h9, h10, h11, h12, h13, h14, h15, h16, h17, h18, h19⟩ := h
    have hk : ∀ k : Spec.Kind, ¬ x = UInt16.ofNat (k.cls * 16 + k.typ) := by
      intro k; cases k <;> assumption
    have hf : Spec.Kind.all.find? (fun k => decide (k.cls * 16 + k.typ = x.toNat)) = none := by
      rw [List.find?_eq_none]
      intro k _ e
      apply hk k
      rw [of_decide_eq_true e]
      simp
    rw [hf]
    simp only [h1, h2, h3, h4, h5, h6, h7, h8, h9, h10, h11, h12, h13, h14, h15, h16, h17, h18, h19,
      if_false, empty]

theorem empty_kind (k : Option Spec.Kind) : (empty k).kind = k := by
  cases k with
  | none => rfl
  | some k => cases k <;> rfl

theorem parse_short4 (b : Bytes) (h : b.length < 4) : parse b = .err .msgTooShortToParse := by
  simp [parse, h]

theorem parse_long (b : Bytes) (h : 4 ≤ b.length) :
    parse b = (empty (selected (b.getD 2 0) (b.getD 3 0))).unmarshalBinary b := by
  match b, h with
  | b0 :: b1 :: b2 :: b3 :: d, _ =>
    rw [parse, if_neg (by simp)]
    simp only [rindex, List.getElem?_cons_succ, List.getElem?_cons_zero, Res.bind_ok, List.getD_cons_succ,
      List.getD_cons_zero, select_eq]

/-- The tags a kind knows. -/
def knownTags (k : Spec.Kind) : List UInt16 := k.params.map fun n => UInt16.ofNat n.tag

/-- Complete description of `UnmarshalBinary` of a typed message. -/
theorem unmarshal_typed (m : M3UA) (k : Spec.Kind) (hk : m.kind = some k) (b : Bytes) :
    (b.length < 8 ∧ m.unmarshalBinary b = .err .msgTooShortToParse) ∨
    (8 ≤ b.length ∧ ∃ h, Header.parse b = .ok h ∧ b = h.head ++ h.payload ∧
      ((∃ e, parseMultiParams h.payload = .err e ∧ m.unmarshalBinary b = .err e) ∨
       (∃ ps, parseMultiParams h.payload = .ok ps ∧
         (((∀ p ∈ ps, p.tag ∈ knownTags k) ∧ ∃ m', m.unmarshalBinary b = .ok m' ∧ m'.kind = some k ∧
            m'.header = h ∧ m'.unusedField = m.unusedField ∧
            ∀ n ∈ k.params, m'.field n = (lastWith (UInt16.ofNat n.tag) ps).or (m.field n)) ∨
          ((¬ ∀ p ∈ ps, p.tag ∈ knownTags k) ∧ ∃ e, e.root = .msgInvalidParameter ∧
            m.unmarshalBinary b = .err e))))) := by
  obtain ⟨M, C, inj, v, _⟩ := exists_view k
  obtain ⟨x, rfl⟩ := v.surj m hk
  rw [v.unmarshalBinary, Codec.unmarshal_exact]
  rcases Header.parse_total b with ⟨hl, h1⟩ | ⟨hl, h, h1, hb⟩
  · exact .inl ⟨hl, by rw [h1]; rfl⟩
  · refine .inr ⟨hl, h, h1, hb, ?_⟩
    rw [h1]
    simp only [Res.bind_ok]
    have aux : ∀ ps, parseMultiParams h.payload = .ok ps → _ := fun ps h2 => show
       ((∀ p ∈ ps, p.tag ∈ knownTags k) ∧ ∃ m', (((if ∀ p ∈ ps, p.tag ∈ Codec.tags M then
            Res.ok (Codec.store (C.setHdr x h) ps) else .err C.bad) >>= fun m => .ok (inj m)) : Res M3UA)
              = .ok m' ∧ m'.kind = some k ∧
            m'.header = h ∧ m'.unusedField = (inj x).unusedField ∧
            ∀ n ∈ k.params, m'.field n = (lastWith (UInt16.ofNat n.tag) ps).or ((inj x).field n)) ∨
          ((¬ ∀ p ∈ ps, p.tag ∈ knownTags k) ∧ ∃ e, e.root = .msgInvalidParameter ∧
            (((if ∀ p ∈ ps, p.tag ∈ Codec.tags M then
            Res.ok (Codec.store (C.setHdr x h) ps) else .err C.bad) >>= fun m => .ok (inj m)) : Res M3UA)
              = .err e) by
      rw [v.tags]
      show _ ∨ _
      change (((∀ p ∈ ps, p.tag ∈ knownTags k) ∧ ∃ m', (((if ∀ p ∈ ps, p.tag ∈ knownTags k then
            Res.ok (Codec.store (C.setHdr x h) ps) else .err C.bad) >>= fun m => .ok (inj m)) : Res M3UA)
              = .ok m' ∧ _) ∨ (_ ∧ ∃ e, _ ∧ (((if ∀ p ∈ ps, p.tag ∈ knownTags k then
            Res.ok (Codec.store (C.setHdr x h) ps) else .err C.bad) >>= fun m => .ok (inj m)) : Res M3UA)
              = .err e))
      by_cases hall : ∀ p ∈ ps, p.tag ∈ knownTags k
      · refine .inl ⟨hall, inj (Codec.store (C.setHdr x h) ps), ?_, v.kind _, ?_, ?_, ?_⟩
        · rw [if_pos hall]; rfl
        · rw [v.header, Codec.hdr_store, Codec.hdr_setHdr]
        · rw [v.unused, v.unused, Codec.aux_store, Codec.aux_setHdr]
        · intro n hn
          obtain ⟨i, hi, rfl⟩ := List.mem_iff_getElem.mp hn
          have ht : (Codec.tags M)[i]? = some (UInt16.ofNat k.params[i].tag) := by
            rw [v.tags]; simp [hi]
          have := Codec.flds_store (C.setHdr x h) ps i _ ht
          rw [Codec.flds_setHdr, ← v.flds, ← v.flds] at this
          simpa [hi] using this
      · refine .inr ⟨hall, C.bad, v.bad, ?_⟩
        rw [if_neg hall]; rfl
    rcases parseMulti_total h.payload with ⟨ps, h2⟩ | h2 | h2
    · refine .inr ⟨ps, h2, ?_⟩
      rw [h2]
      exact aux ps h2
    · exact .inl ⟨_, h2, by rw [h2]; rfl⟩
    · exact .inl ⟨_, h2, by rw [h2]; rfl⟩

/-- Complete description of `UnmarshalBinary` of a generic message. -/
theorem unmarshal_generic (g : Generic) (b : Bytes) :
    (b.length < 8 ∧ (M3UA.generic g).unmarshalBinary b = .err .msgTooShortToParse) ∨
    (8 ≤ b.length ∧ ∃ h, Header.parse b = .ok h ∧ b = h.head ++ h.payload ∧
      ((∃ e, parseMultiParams h.payload = .err e ∧ (M3UA.generic g).unmarshalBinary b = .err e) ∨
       (∃ ps, parseMultiParams h.payload = .ok ps ∧
          (M3UA.generic g).unmarshalBinary b = .ok (.generic ⟨h, g.params ++ ps⟩)))) := by
  simp only [unmarshalBinary, Generic.unmarshalBinary]
  rcases Header.parse_total b with ⟨hl, h1⟩ | ⟨hl, h, h1, hb⟩
  · exact .inl ⟨hl, by rw [h1]; rfl⟩
  · refine .inr ⟨hl, h, h1, hb, ?_⟩
    rw [h1]
    rcases parseMulti_total h.payload with ⟨ps, h2⟩ | h2 | h2
    · exact .inr ⟨ps, h2, by simp [h2]⟩
    · exact .inl ⟨_, h2, by simp [h2]⟩
    · exact .inl ⟨_, h2, by simp [h2]⟩

/-! ### Constructed messages -/

theorem tv_setLength (o : Option Param) : tv (o.map Param.setLength) = tv o := by
  cases o <;> rfl

theorem encode_setLength (p : Param) : p.setLength.encode = Spec.tlv p.tag.toNat p.data := by
  simp only [Param.encode, Param.head, Param.setLength, u16bytes_spec, Spec.tlv]
  congr 3
  simp only [UInt16.toNat_ofNat', Spec.be16]
  congr 1
  · apply UInt8.toNat_inj.mp; simp; omega
  · congr 1; apply UInt8.toNat_inj.mp; simp

theorem body_setLength (fs : List (Option Param)) :
    body (fs.map (Option.map Param.setLength)) = (Spec.presentTlvs (fs.map tv)).flatten := by
  induction fs with
  | nil => rfl
  | cons o fs ih =>
    cases o with
    | none => simpa [Spec.presentTlvs, tv] using ih
    | some p => simp [Spec.presentTlvs, tv, ih, encode_setLength]

theorem be32_mod (n : Nat) : Spec.be32 (n % 4294967296) = Spec.be32 n := by
  simp only [Spec.be32]
  congr 1
  · apply UInt8.toNat_inj.mp; simp; omega
  · congr 1
    · apply UInt8.toNat_inj.mp; simp; omega
    · congr 1
      · apply UInt8.toNat_inj.mp; simp; omega
      · congr 1; apply UInt8.toNat_inj.mp; simp

theorem u32bytes_ofNat (n : Nat) : u32bytes (UInt32.ofNat n) = Spec.be32 n := by
  rw [u32bytes_spec, UInt32.toNat_ofNat', be32_mod]

/-- Layout of a message whose header and parameters are as the constructors leave them. -/
theorem layout (m : M3UA) (k : Spec.Kind) (hk : m.kind = some k)
    (hh : m.header = ⟨1, 0, UInt8.ofNat k.cls, UInt8.ofNat k.typ, UInt32.ofNat m.marshalLen, []⟩)
    (fs : List (Option Param)) (hf : k.params.map m.field = fs.map (Option.map Param.setLength)) :
    m.Encodes (Spec.message 1 k.cls k.typ (Spec.presentTlvs (fs.map tv))) := by
  have hb : m.bodyBytes = (Spec.presentTlvs (fs.map tv)).flatten := by
    rw [bodyBytes, wireParams_typed hk, hf]; exact body_setLength fs
  rw [encodes_iff, hb, hh]
  simp only [Header.head, Spec.message, u32bytes_ofNat, marshalLen_eq, hb]
  rfl

/-- What all constructed messages have in common. -/
theorem Constructed.facts {m : M3UA} (h : Constructed m) : ∃ k, m.kind = some k ∧
    m.header = ⟨1, 0, UInt8.ofNat k.cls, UInt8.ofNat k.typ, UInt32.ofNat m.marshalLen, []⟩ ∧
    m.unusedField = none ∧
    ∃ fs : List (Option Param), k.params.map m.field = fs.map (Option.map Param.setLength) := by
  cases h
  case error a b c d e => exact ⟨_, rfl, rfl, rfl, [a, b, c, d, e], rfl⟩
  case notify a b c d => exact ⟨_, rfl, rfl, rfl, [a, b, c, d], rfl⟩
  case data a b c d => exact ⟨_, rfl, rfl, rfl, [a, b, c, d], rfl⟩
  case duna a b c d => exact ⟨_, rfl, rfl, rfl, [a, b, c, d], rfl⟩
  case dava a b c d => exact ⟨_, rfl, rfl, rfl, [a, b, c, d], rfl⟩
  case daud a b c d => exact ⟨_, rfl, rfl, rfl, [a, b, c, d], rfl⟩
  case scon a b c d e f => exact ⟨_, rfl, rfl, rfl, [a, b, c, d, e, f], rfl⟩
  case dupu a b c d e => exact ⟨_, rfl, rfl, rfl, [a, b, c, d, e], rfl⟩
  case drst a b c d => exact ⟨_, rfl, rfl, rfl, [a, b, c, d], rfl⟩
  case aspUp a b => exact ⟨_, rfl, rfl, rfl, [a, b], rfl⟩
  case aspDown a => exact ⟨_, rfl, rfl, rfl, [a], rfl⟩
  case heartbeat a => exact ⟨_, rfl, rfl, rfl, [a], rfl⟩
  case aspUpAck a b => exact ⟨_, rfl, rfl, rfl, [a, b], rfl⟩
  case aspDownAck a => exact ⟨_, rfl, rfl, rfl, [a], rfl⟩
  case heartbeatAck a => exact ⟨_, rfl, rfl, rfl, [a], rfl⟩
  case aspActive a b c => exact ⟨_, rfl, rfl, rfl, [a, b, c], rfl⟩
  case aspInactive a b => exact ⟨_, rfl, rfl, rfl, [a, b], rfl⟩
  case aspActiveAck a b c => exact ⟨_, rfl, rfl, rfl, [a, b, c], rfl⟩
  case aspInactiveAck a b => exact ⟨_, rfl, rfl, rfl, [a, b], rfl⟩

end M3UA

end M3
