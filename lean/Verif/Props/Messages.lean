import Verif.Props.MessageLayout
import Verif.Props.Params

/-! Properties C16-C30: the common header, the 19 typed messages, `Generic`, and `messages.Parse`. -/

set_option autoImplicit false

namespace M3

open Msg
open Spec (be16 be32 pad tlv field16 field32 ParamSeq maxValue message presentTlvs Kind PName)

theorem drop_head (h : Header) (d : Bytes) : (h.head ++ d).drop 8 = d :=
  List.drop_left' (by simp)

/-! ### C16: the common header -/

/-- C16: header bytes. -/
theorem c16_layout (h : Header) :
    h.marshalBinary = .ok ([h.version, h.reserved, h.cls, h.typ] ++ be32 h.length.toNat ++ h.payload) := by
  rw [Header.marshalBinary_eq, Header.head, u32bytes_spec]

/-- C16: marshal then parse gives the header back, payload included. -/
theorem c16_roundtrip (h : Header) : ∃ b, h.marshalBinary = .ok b ∧ Header.parse b = .ok h :=
  ⟨_, Header.marshalBinary_eq h, Header.parse_head h h.payload⟩

example : Header.parse [1, 0, 3, 4, 0, 0, 0, 10, 0xde, 0xad] = .ok (Header.new 1 3 4 [0xde, 0xad]) := by decide

/-- C16: `ParseHeader` fails exactly on fewer than eight bytes. -/
theorem c16_fail (b : Bytes) :
    (b.length < 8 ∧ Header.parse b = .err .msgTooShortToParse) ∨
    (8 ≤ b.length ∧ ∃ h, Header.parse b = .ok h ∧ b[0]? = some h.version ∧ b[1]? = some h.reserved ∧
      b[2]? = some h.cls ∧ b[3]? = some h.typ ∧ h.length.toNat = field32 b 4 ∧ h.payload = b.drop 8) := by
  by_cases hb : b.length < 8
  · exact .inl ⟨hb, Header.parse_short b hb⟩
  · obtain ⟨b0, b1, b2, b3, b4, b5, b6, b7, d, rfl⟩ := Header.eight_split b (by omega)
    refine .inr ⟨by simp, _, Header.parse_cons .., rfl, rfl, rfl, rfl, ?_, rfl⟩
    rw [get32_val]; rfl

/-- C16: `NewHeader` sets reserved to 0 and the length to 8 plus the payload. -/
theorem c16_new (v c t : UInt8) (p : Bytes) (hp : 8 + p.length < 2 ^ 32) :
    (Header.new v c t p).marshalBinary = .ok ([v, 0, c, t] ++ be32 (8 + p.length) ++ p) ∧
    (Header.new v c t p).length.toNat = 8 + p.length := by
  have : (Header.new v c t p).length.toNat = 8 + p.length := by
    simp only [Header.new, Header.setLength, UInt32.toNat_ofNat']; omega
  refine ⟨?_, this⟩
  rw [c16_layout, this]; rfl

example : (Header.new 1 3 4 [0xde, 0xad]).marshalBinary = .ok [1, 0, 3, 4, 0, 0, 0, 10, 0xde, 0xad] := by
  decide

/-! ### C17: layout of all constructed messages -/

/-- C17: every message built by one of the 19 constructors marshals to version 1, reserved 0, the
RFC's class and type, the total length, and the TLVs of its non-nil parameters in the RFC's order.
(`c17_data` etc. in `MessageLayout` tell which argument ends up where.) -/
theorem c17_layout (m : M3UA) (h : M3UA.Constructed m) : ∃ k, m.kind = some k ∧
    m.Encodes (message 1 k.cls k.typ (presentTlvs (k.params.map fun n => tv (m.field n)))) := by
  obtain ⟨k, hk, hh, _, fs, hf⟩ := h.facts
  refine ⟨k, hk, ?_⟩
  have := M3UA.layout m k hk hh fs hf
  have e : (k.params.map fun n => tv (m.field n)) = fs.map tv := by
    have h2 : (k.params.map m.field).map tv = (fs.map (Option.map Param.setLength)).map tv := by rw [hf]
    rw [List.map_map, List.map_map] at h2
    rw [show (fun n => tv (m.field n)) = tv ∘ m.field from rfl, h2]
    apply List.map_congr_left
    intro o _
    exact M3UA.tv_setLength o
  rw [e]; exact this

example : (M3UA.aspUp (AspUp.new (some (Param.newUint32Val 0x11 7)) none)).Encodes
    [1, 0, 3, 1, 0, 0, 0, 16, 0, 0x11, 0, 8, 0, 0, 0, 7] :=
  c17_aspUp _ _

/-! ### C18: round trip through `messages.Parse` -/

/-- The parameters sit in slots of their own tag and fit a parameter's length field. -/
def M3UA.WellTagged (m : M3UA) : Prop :=
  ∀ n p, m.field n = some p → p.tag.toNat = n.tag ∧ p.data.length ≤ maxValue

theorem selected_own (k : Kind) :
    M3UA.selected (UInt8.ofNat k.cls) (UInt8.ofNat k.typ) = some k := by
  cases k <;> rfl

theorem parse_empty_of_header (h : Header) (d : Bytes) :
    M3UA.parse (h.head ++ d) = (M3UA.empty (M3UA.selected h.cls h.typ)).unmarshalBinary (h.head ++ d) := by
  rw [M3UA.parse_long _ (by simp; omega)]
  rfl

theorem tag_ofNat (n : PName) (t : UInt16) : t.toNat = n.tag ↔ t = UInt16.ofNat n.tag := by
  have hn : n.tag < 65536 := by cases n <;> decide
  constructor
  · intro h; apply UInt16.toNat_inj.mp; simp; omega
  · rintro rfl; simp; omega

/-- Parsing what a well-tagged, consistent typed message marshals to gives the message back. -/
theorem parse_typed (m : M3UA) (k : Kind) (hk : m.kind = some k) (hu : m.unusedField = none)
    (hs : M3UA.selected m.header.cls m.header.typ = some k)
    (ht : ∀ n p, m.field n = some p → p.tag.toNat = n.tag)
    (hc : ∀ n p, m.field n = some p → p.Consistent) :
    M3UA.parse (m.header.head ++ m.bodyBytes) = .ok m.cached := by
  rw [parse_empty_of_header, hs]
  obtain ⟨M, C, inj, v, he⟩ := exists_view k
  obtain ⟨x, rfl⟩ := v.surj m hk
  have hb : (inj x).bodyBytes = body (C.flds x) := by
    rw [M3UA.bodyBytes, M3UA.wireParams_typed hk, v.flds]; rfl
  rw [he, v.unmarshalBinary, hb, M3UA.cached, hb, ← M3UA.view_setHdr v]
  rw [Codec.parse_encode x]
  · rfl
  · intro y hy p hp
    rw [v.tags, ← v.flds] at hy
    obtain ⟨i, hi⟩ := List.mem_iff_getElem?.mp hy
    rw [List.getElem?_zip_eq_some, List.getElem?_map, List.getElem?_map] at hi
    obtain ⟨h1, h2⟩ := hi
    cases hn : k.params[i]? with
    | none => rw [hn] at h1; cases h1
    | some n =>
      rw [hn] at h1 h2
      simp only [Option.map_some, Option.some.injEq] at h1 h2
      rw [← h1]
      exact (tag_ofNat n p.tag).mp (ht n p (h2.trans hp))
  · intro p hp
    rw [← v.flds] at hp
    simp only [present, List.mem_filterMap, List.mem_map, id_eq] at hp
    obtain ⟨_, ⟨n, _, rfl⟩, hp⟩ := hp
    exact hc n p hp
  · rw [← v.unused]; exact hu

theorem Constructed_consistent {m : M3UA} (h : M3UA.Constructed m)
    (hw : ∀ n p, m.field n = some p → p.data.length ≤ maxValue) :
    ∀ n p, m.field n = some p → p.Consistent := by
  intro n p hp
  obtain ⟨k, hk, _, _, fs, hf⟩ := h.facts
  obtain ⟨M, C, inj, v, _⟩ := exists_view k
  obtain ⟨x, rfl⟩ := v.surj m hk
  have hn : n ∈ k.params := Decidable.byContradiction fun hn => by
    rw [v.field_other _ _ hn] at hp; cases hp
  have : (inj x).field n ∈ k.params.map (inj x).field := List.mem_map.mpr ⟨n, hn, rfl⟩
  rw [hf, hp] at this
  simp only [List.mem_map, Option.map_eq_some_iff] at this
  obtain ⟨o, _, q, rfl, rfl⟩ := this
  exact Param.setLength_consistent q (show q.setLength.data.length ≤ maxValue from hw n _ hp)

/-- C18: parsing the bytes of a constructed, well-tagged message yields a message of the same type
with the same parameters, version 1, reserved 0 and the right length. -/
theorem c18_roundtrip (m : M3UA) (h : M3UA.Constructed m) (hw : m.WellTagged) :
    ∃ bs m', m.Encodes bs ∧ M3UA.parse bs = .ok m' ∧ m'.kind = m.kind ∧
      (∀ n, m'.field n = m.field n) ∧ m'.unusedField = none ∧
      m'.header.version = 1 ∧ m'.header.reserved = 0 ∧
      m'.header.cls = m.messageClass ∧ m'.header.typ = m.messageType ∧
      m'.header.length = m.header.length ∧ m'.header.payload = bs.drop 8 := by
  obtain ⟨k, hk, hh, hu, fs, hf⟩ := h.facts
  have hkk : m.messageClass = UInt8.ofNat k.cls ∧ m.messageType = UInt8.ofNat k.typ := by
    cases m <;> simp only [M3UA.kind, Option.some.injEq, reduceCtorEq] at hk <;> subst hk <;> exact ⟨rfl, rfl⟩
  refine ⟨_, m.cached, M3UA.encodes_iff.mpr rfl, ?_, ?_⟩
  · apply parse_typed m k hk hu
    · rw [hh]; exact selected_own k
    · exact fun n p hp => (hw n p hp).1
    · exact Constructed_consistent h fun n p hp => (hw n p hp).2
  · simp [M3UA.cached, hh, hu, hkk]

example : M3UA.Constructed (.aspUp (AspUp.new (some (Param.newUint32Val 0x11 7)) none)) ∧
    (M3UA.aspUp (AspUp.new (some (Param.newUint32Val 0x11 7)) none)).WellTagged := by
  refine ⟨.aspUp _ _, ?_⟩
  intro n p hp
  cases n <;> simp [M3UA.field, AspUp.new, AspUp.setLength] at hp
  subst hp; decide

/-! ### C19: Generic messages -/

/-- C19: layout of a generic message. -/
theorem c19_layout (ver cls typ : UInt8) (ps : List Param) :
    (M3UA.generic (Generic.new ver cls typ ps)).Encodes
      (message ver.toNat cls.toNat typ.toNat (ps.map fun p => tlv p.tag.toNat p.data)) := by
  rw [M3UA.encodes_iff]
  have hb : (M3UA.generic (Generic.new ver cls typ ps)).bodyBytes
      = (ps.map fun p => tlv p.tag.toNat p.data).flatten := by
    show (ps.map Param.setLength).flatMap Param.encode = _
    induction ps with
    | nil => rfl
    | cons p ps ih => simp [M3UA.encode_setLength, ih]
  have hl : (Generic.new ver cls typ ps).header.length
      = UInt32.ofNat (M3UA.generic (Generic.new ver cls typ ps)).marshalLen := rfl
  rw [hb]
  simp only [M3UA.header, Header.head, hl, M3UA.marshalLen_eq, hb, M3UA.u32bytes_ofNat, message]
  congr 2
  show _ = [ver, 0, cls, typ]
  simp

/-- C19: `ParseGeneric` gives version, class, type and parameters back. -/
theorem c19_roundtrip (ver cls typ : UInt8) (ps : List Param)
    (h : ∀ p ∈ ps, p.data.length ≤ maxValue) :
    ∃ bs g, (M3UA.generic (Generic.new ver cls typ ps)).Encodes bs ∧ Generic.parse bs = .ok g ∧
      g.version = ver ∧ g.messageClass = cls ∧ g.messageType = typ ∧ g.header.reserved = 0 ∧
      g.params.map (fun p => (p.tag, p.data)) = ps.map (fun p => (p.tag, p.data)) ∧
      (∀ p ∈ g.params, p.length.toNat = 4 + p.data.length) := by
  have hc : ∀ p ∈ ps.map Param.setLength, p.Consistent := by
    intro p hp
    obtain ⟨q, hq, rfl⟩ := List.mem_map.mp hp
    exact Param.setLength_consistent q (h q hq)
  refine ⟨_, ⟨{ (Generic.new ver cls typ ps).header with
      payload := (ps.map Param.setLength).flatMap Param.encode }, ps.map Param.setLength⟩,
    M3UA.encodes_iff.mpr rfl, ?_, rfl, rfl, rfl, rfl, ?_, hc⟩
  · show (Header.parse _ >>= fun h => _) = _
    rw [Header.parse_head]
    have : parseMultiParams ((ps.map Param.setLength).flatMap Param.encode) = .ok (ps.map Param.setLength) :=
      parseMulti_encode _ hc
    simp only [Res.bind_ok]
    show (parseMultiParams ((ps.map Param.setLength).flatMap Param.encode) >>= fun prs => _) = _
    rw [this]
    rfl
  · simp [Function.comp_def, Param.setLength]

example : ∃ g, Generic.parse [1, 0, 9, 1, 0, 0, 0, 16, 0, 4, 0, 5, 7, 0, 0, 0] = .ok g ∧ g.params = [⟨4, 5, [7]⟩] := ⟨_, rfl, rfl⟩

/-- C19: `messages.Parse` of any bytes returns a `Generic` exactly when class and type select no
known message; it is then what `ParseGeneric` returns. -/
theorem c19_parse (b : Bytes) (m : M3UA) (h : M3UA.parse b = .ok m) :
    (∃ g, m = .generic g ∧ Generic.parse b = .ok g) ↔
      ∀ k : Kind, k.cls * 16 + k.typ ≠ ((b.getD 2 0).toNat * 16) % 256 ||| (b.getD 3 0).toNat := by
  have hb : 4 ≤ b.length := Decidable.byContradiction fun hb => by
    rw [M3UA.parse_short4 b (by omega)] at h; cases h
  rw [M3UA.parse_long b hb] at h
  have hsel : M3UA.selected (b.getD 2 0) (b.getD 3 0) = none ↔
      ∀ k : Kind, k.cls * 16 + k.typ ≠ ((b.getD 2 0).toNat * 16) % 256 ||| (b.getD 3 0).toNat := by
    rw [M3UA.selected, List.find?_eq_none]
    constructor
    · intro h k; have := h k (by cases k <;> decide); simpa using this
    · intro h k _; simpa using h k
  rw [← hsel]
  constructor
  · rintro ⟨g, rfl, _⟩
    cases hs : M3UA.selected (b.getD 2 0) (b.getD 3 0) with
    | none => rfl
    | some k =>
      rw [hs] at h
      rcases M3UA.unmarshal_typed _ k (M3UA.empty_kind _) b with ⟨_, h'⟩ | ⟨_, hd, _, _, h'⟩
      · rw [h'] at h; cases h
      · rcases h' with ⟨_, _, h'⟩ | ⟨_, _, ⟨_, m', h', hk, _⟩ | ⟨_, _, _, h'⟩⟩
        · rw [h'] at h; cases h
        · rw [h'] at h; cases h; cases hk
        · rw [h'] at h; cases h
  · intro hs
    rw [hs] at h
    simp only [M3UA.empty, M3UA.unmarshalBinary] at h
    show ∃ g, _ ∧ Generic.zero.unmarshalBinary b = .ok g
    cases hg : Generic.zero.unmarshalBinary b with
    | ok g => rw [hg] at h; cases h; exact ⟨g, rfl, rfl⟩
    | err e => rw [hg] at h; cases h
    | panic => rw [hg] at h; cases h
    | diverge => rw [hg] at h; cases h

/-- A message of a class that is not known. -/
example : ∃ g, M3UA.parse [1, 0, 9, 1, 0, 0, 0, 8] = .ok (.generic g) := ⟨_, rfl⟩

/-! ### C20: totality -/

/-- C20: `UnmarshalBinary` of any message value on any bytes returns or fails with an error that
matches one of four sentinel errors; it never panics or loops. -/
theorem c20_unmarshal (m : M3UA) (b : Bytes) :
    (∃ m', m.unmarshalBinary b = .ok m') ∨
    (∃ e, m.unmarshalBinary b = .err e ∧ e.root ∈ [Err.msgTooShortToParse, .msgInvalidParameter,
      .paramTooShortToParse, .paramInvalidLength]) := by
  have perr : ∀ {p e}, parseMultiParams p = .err e →
      e.root ∈ [Err.msgTooShortToParse, .msgInvalidParameter, .paramTooShortToParse, .paramInvalidLength] := by
    intro p e h
    rcases parseMulti_total p with ⟨_, h'⟩ | h' | h' <;> rw [h] at h' <;> cases h' <;> decide
  cases hk : m.kind with
  | none =>
    cases m <;> simp [M3UA.kind] at hk
    rename_i g
    rcases M3UA.unmarshal_generic g b with ⟨_, h'⟩ | ⟨_, hd, _, _, ⟨e, he, h'⟩ | ⟨_, _, h'⟩⟩
    · exact .inr ⟨_, h', by decide⟩
    · exact .inr ⟨_, h', perr he⟩
    · exact .inl ⟨_, h'⟩
  | some k =>
    rcases M3UA.unmarshal_typed m k hk b with ⟨_, h'⟩ | ⟨_, hd, _, _, h'⟩
    · exact .inr ⟨_, h', by decide⟩
    · rcases h' with ⟨_, he, h'⟩ | ⟨_, _, ⟨_, m', h', hk, _⟩ | ⟨_, _, he, h'⟩⟩
      · exact .inr ⟨_, h', perr he⟩
      · exact .inl ⟨_, h'⟩
      · exact .inr ⟨_, h', by rw [he]; decide⟩

/-- C20: the same for `messages.Parse`. -/
theorem c20_parse (b : Bytes) :
    (∃ m, M3UA.parse b = .ok m) ∨
    (∃ e, M3UA.parse b = .err e ∧ e.root ∈ [Err.msgTooShortToParse, .msgInvalidParameter,
      .paramTooShortToParse, .paramInvalidLength]) := by
  by_cases hb : b.length < 4
  · exact .inr ⟨_, M3UA.parse_short4 b hb, by decide⟩
  · rw [M3UA.parse_long b (by omega)]
    exact c20_unmarshal _ b

/-- C20: fewer than eight bytes are always refused as too short, and nothing else is. -/
theorem c20_short (b : Bytes) : M3UA.parse b = .err .msgTooShortToParse ↔ b.length < 8 := by
  constructor
  · intro h
    apply Decidable.byContradiction
    intro hb
    rw [M3UA.parse_long b (by omega)] at h
    have perr : ∀ {p}, parseMultiParams p ≠ .err .msgTooShortToParse := by
      intro p h
      rcases parseMulti_total p with ⟨_, h'⟩ | h' | h' <;> rw [h] at h' <;> cases h'
    cases hs : M3UA.selected (b.getD 2 0) (b.getD 3 0) with
    | none =>
      rw [hs] at h
      rcases M3UA.unmarshal_generic Generic.zero b with ⟨_, _⟩ | ⟨_, hd, _, _, ⟨e, he, h'⟩ | ⟨_, _, h'⟩⟩
      · omega
      · rw [M3UA.empty, h'] at h; cases h; exact perr he
      · rw [M3UA.empty, h'] at h; cases h
    | some k =>
      rw [hs] at h
      rcases M3UA.unmarshal_typed _ k (M3UA.empty_kind _) b with ⟨_, _⟩ | ⟨_, hd, _, _, h'⟩
      · omega
      · rcases h' with ⟨_, he, h'⟩ | ⟨_, _, ⟨_, m', h', hk, _⟩ | ⟨_, _, he, h'⟩⟩
        · rw [h'] at h; cases h; exact perr he
        · rw [h'] at h; cases h
        · rw [h'] at h; cases h; cases he
  · intro hb
    by_cases h4 : b.length < 4
    · exact M3UA.parse_short4 b h4
    · rw [M3UA.parse_long b (by omega)]
      cases hs : M3UA.selected (b.getD 2 0) (b.getD 3 0) with
      | none =>
        rcases M3UA.unmarshal_generic Generic.zero b with ⟨_, h⟩ | ⟨_, _⟩
        · exact h
        · omega
      | some k =>
        rcases M3UA.unmarshal_typed _ k (M3UA.empty_kind (some k)) b with ⟨_, h⟩ | ⟨_, _⟩
        · exact h
        · omega

/-! ### C21: type selection -/

theorem parse_kind (b : Bytes) (m : M3UA) (h : M3UA.parse b = .ok m) :
    8 ≤ b.length ∧ m.kind = M3UA.selected (b.getD 2 0) (b.getD 3 0) := by
  have h8 : 8 ≤ b.length := Decidable.byContradiction fun hb => by
    rw [(c20_short b).mpr (by omega)] at h; cases h
  refine ⟨h8, ?_⟩
  rw [M3UA.parse_long b (by omega)] at h
  cases hs : M3UA.selected (b.getD 2 0) (b.getD 3 0) with
  | none =>
    rw [hs] at h
    rcases M3UA.unmarshal_generic Generic.zero b with ⟨_, h'⟩ | ⟨_, hd, _, _, ⟨e, he, h'⟩ | ⟨_, _, h'⟩⟩ <;>
      rw [M3UA.empty, h'] at h <;> cases h
    rfl
  | some k =>
    rw [hs] at h
    rcases M3UA.unmarshal_typed _ k (M3UA.empty_kind _) b with ⟨_, h'⟩ | ⟨_, hd, _, _, h'⟩
    · rw [h'] at h; cases h
    · rcases h' with ⟨_, he, h'⟩ | ⟨_, _, ⟨_, m', h', hk, _⟩ | ⟨_, _, he, h'⟩⟩
      · rw [h'] at h; cases h
      · rw [h'] at h; cases h; exact hk
      · rw [h'] at h; cases h

/-- C21: for class and type below 16 the selected type is the one RFC 4666 assigns, and `Generic`
for unassigned pairs. -/
theorem c21_small (b : Bytes) (m : M3UA) (h : M3UA.parse b = .ok m)
    (hc : (b.getD 2 0).toNat < 16) (ht : (b.getD 3 0).toNat < 16) (k : Kind) :
    m.kind = some k ↔ (b.getD 2 0).toNat = k.cls ∧ (b.getD 3 0).toNat = k.typ := by
  obtain ⟨_, hk⟩ := parse_kind b m h
  rw [hk]
  generalize (b.getD 2 0) = c at *
  generalize (b.getD 3 0) = t at *
  have key : (c.toNat * 16) % 256 ||| t.toNat = c.toNat * 16 + t.toNat := by
    rw [Nat.mod_eq_of_lt (by omega)]
    have : c.toNat * 16 = c.toNat <<< 4 := (Nat.shiftLeft_eq c.toNat 4).symm
    rw [this, Nat.shiftLeft_add_eq_or_of_lt (by omega)]
  have hk16 : ∀ k : Kind, k.cls < 16 ∧ k.typ < 16 := by intro k; cases k <;> decide
  rw [M3UA.selected, key]
  constructor
  · intro hf
    have := List.find?_some hf
    simp only [decide_eq_true_eq] at this
    have := hk16 k
    omega
  · rintro ⟨h1, h2⟩
    have e1 : c = UInt8.ofNat k.cls := by apply UInt8.toNat_inj.mp; simp; omega
    have e2 : t = UInt8.ofNat k.typ := by apply UInt8.toNat_inj.mp; simp; omega
    have := selected_own k
    rw [← e1, ← e2, M3UA.selected, key] at this
    exact this

example : ∃ m, M3UA.parse [1, 0, 3, 3, 0, 0, 0, 8] = .ok m ∧ m.kind = some .heartbeat := ⟨_, rfl, rfl⟩

/-- C21: for all class and type bytes, exactly the pairs that agree modulo `c*16 mod 256 | t` with a
known pair are parsed as that message. -/
theorem c21_all (b : Bytes) (m : M3UA) (h : M3UA.parse b = .ok m) (k : Kind) :
    m.kind = some k ↔ k.cls * 16 + k.typ = ((b.getD 2 0).toNat * 16) % 256 ||| (b.getD 3 0).toNat := by
  obtain ⟨_, hk⟩ := parse_kind b m h
  rw [hk, M3UA.selected]
  constructor
  · intro hf
    have := List.find?_some hf
    simpa using this
  · intro e
    rw [← e]
    cases k <;> rfl

/-- C21: the collisions are real: class 17 type 1, and class 0 type 17, are taken for DATA (1,1); class
16 type 0 for Error (0,0). -/
theorem c21_collisions :
    (∃ m, M3UA.parse [1, 0, 17, 1, 0, 0, 0, 8] = .ok (.data m)) ∧
    (∃ m, M3UA.parse [1, 0, 0, 17, 0, 0, 0, 8] = .ok (.data m)) ∧
    (∃ m, M3UA.parse [1, 0, 16, 0, 0, 0, 0, 8] = .ok (.error m)) := ⟨⟨_, rfl⟩, ⟨_, rfl⟩, ⟨_, rfl⟩⟩

/-- C21: `MessageClass()` and `MessageType()` of a typed message are the numbers of RFC 4666, whatever its header says; those of a
`Generic` and all versions come from the header. -/
theorem c21_accessors (m : M3UA) :
    (∀ k, m.kind = some k → m.messageClass.toNat = k.cls ∧ m.messageType.toNat = k.typ) ∧
    (m.kind = none → m.messageClass = m.header.cls ∧ m.messageType = m.header.typ) ∧ m.version = m.header.version := by
  refine ⟨fun k hk => ?_, fun hk => ?_, ?_⟩
  · cases m <;> simp only [M3UA.kind, Option.some.injEq, reduceCtorEq] at hk <;> subst hk <;> exact ⟨rfl, rfl⟩
  · cases m <;> simp only [M3UA.kind, reduceCtorEq] at hk
    exact ⟨rfl, rfl⟩
  · cases m <;> rfl

/-- For `c21_all`: The header of a received message need not agree with the accessors. -/
example : ∃ m, M3UA.parse [1, 0, 20, 1, 0, 0, 0, 8] = .ok m ∧ m.header.cls = 20 ∧ m.messageClass = 4 ∧ m.kind = some .aspActive :=
  ⟨_, rfl, rfl, rfl, rfl⟩

/-! ### C22: `MarshalTo` and the caller's buffer -/

/-- C22: too small a buffer is refused; otherwise exactly the `MarshalBinary` bytes are written at the
front of the slice and every other byte of the underlying array keeps its value. The number of bytes
written is `MarshalLen`. -/
theorem c22_marshalTo (m : M3UA) (b : Slice) (hb : b.WF) :
    (b.len < m.marshalLen ∧ m.marshalTo b = .err .msgTooShortToMarshal) ∨
    (m.marshalLen ≤ b.len ∧ ∃ m' mem bs, m.marshalTo b = .ok (m', mem) ∧ m.Encodes bs ∧
      bs.length = m.marshalLen ∧
      mem = b.mem.take b.off ++ bs ++ b.mem.drop (b.off + bs.length) ∧ mem.length = b.mem.length) := by
  rw [M3UA.marshalTo_exact m b hb]
  by_cases hl : b.len < m.marshalLen
  · exact .inl ⟨hl, by rw [if_pos hl]⟩
  · refine .inr ⟨by omega, m.cached, _, _, if_neg hl, M3UA.encodes_iff.mpr rfl, ?_, rfl, ?_⟩
    · simp [M3UA.marshalLen_eq]
    · have hw : b.off + b.len ≤ b.mem.length := hb
      apply writeAt_length
      rw [M3UA.marshalLen_eq] at hl
      simp only [List.length_append, Header.head_length]
      omega

/-- C22: the package function `messages.MarshalBinary` and the method agree, and never fail. -/
theorem c22_marshalBinary (m : M3UA) : m.marshalBinaryOf = m.marshalBinary ∧ ∃ bs, m.Encodes bs := by
  refine ⟨?_, _, M3UA.encodes_iff.mpr rfl⟩
  show (m.marshalTo (Slice.make m.marshalLen) >>= fun r =>
    Res.ok (r.1, { Slice.make m.marshalLen with mem := r.2 }.bytes)) = _
  rw [M3UA.marshalTo_exact _ _ (by simp [Slice.WF, Slice.make]), if_neg (by simp [Slice.make]),
    M3UA.marshalBinary_exact]
  simp only [Res.bind_ok, Slice.make, Slice.bytes]
  rw [Param.writeAt_replicate_zero, M3UA.marshalLen_eq, List.drop_zero, List.take_of_length_le (by simp)]
  simp

/-- For the theorems on C22: a part of a larger array. -/
example : Slice.WF ⟨List.replicate 40 0xff, 4, 20⟩ ∧
    (M3UA.aspUp (AspUp.new none none)).marshalLen ≤ (Slice.mk (List.replicate 40 0xff) 4 20).len :=
  ⟨by simp [Slice.WF], by decide⟩

/-! ### C23, C24, C27: which parameters are accepted and what is stored -/

theorem seq_parse {b : Bytes} {qs : List (Nat × Bytes)} (h : ParamSeq b qs) :
    ∃ ps, parseMultiParams b = .ok ps ∧ ps.map (fun p => (p.tag.toNat, p.data)) = qs := by
  obtain ⟨ps, hp⟩ := (c05_accept_iff b).mpr ⟨qs, h⟩
  exact ⟨ps, hp, c05_unique b _ _ (paramSeq_of_parse hp) h⟩

theorem mem_knownTags (k : Kind) (t : UInt16) :
    t ∈ M3UA.knownTags k ↔ ∃ n ∈ k.params, t.toNat = n.tag := by
  simp only [M3UA.knownTags, List.mem_map]
  constructor
  · rintro ⟨n, hn, rfl⟩; exact ⟨n, hn, (tag_ofNat n _).mpr rfl⟩
  · rintro ⟨n, hn, h⟩; exact ⟨n, hn, ((tag_ofNat n t).mp h).symm⟩

theorem lastWith_value (n : PName) (ps : List Param) :
    (lastWith (UInt16.ofNat n.tag) ps).map (·.data)
      = Spec.lastValue n (ps.map fun p => (p.tag.toNat, p.data)) := by
  have : (fun p : Param => decide (p.tag = UInt16.ofNat n.tag)) = fun p => decide (p.tag.toNat = n.tag) := by
    funext p; congr 1; exact propext (tag_ofNat n p.tag).symm
  simp only [lastWith, Spec.lastValue, List.filter_map, List.getLast?_map, Option.map_map,
    Function.comp_def, this]

/-- C23, C24, C27: `UnmarshalBinary` of a typed message into an arbitrary old value, on input whose
body is the parameter sequence `qs`. It succeeds iff every tag is one of the message's, with
`ErrInvalidParameter` otherwise; on success each slot holds the last parameter with its tag, or keeps
its old content if there is none. -/
theorem c27_typed (m : M3UA) (k : Kind) (hk : m.kind = some k) (b : Bytes) (hb : 8 ≤ b.length)
    (qs : List (Nat × Bytes)) (hq : ParamSeq (b.drop 8) qs) :
    ((∀ q ∈ qs, ∃ n ∈ k.params, q.1 = n.tag) ∧
      ∃ m', m.unmarshalBinary b = .ok m' ∧ m'.kind = some k ∧
        Header.parse b = .ok m'.header ∧ m'.unusedField = m.unusedField ∧
        ∀ n ∈ k.params, match Spec.lastValue n qs with
          | some v => ∃ p, m'.field n = some p ∧ p.tag.toNat = n.tag ∧ p.data = v ∧
              p.length.toNat = 4 + v.length
          | none => m'.field n = m.field n) ∨
    ((∃ q ∈ qs, ∀ n ∈ k.params, q.1 ≠ n.tag) ∧
      ∃ e, m.unmarshalBinary b = .err e ∧ e.root = .msgInvalidParameter) := by
  obtain ⟨ps, hp, rfl⟩ := seq_parse hq
  rcases M3UA.unmarshal_typed m k hk b with ⟨_, _⟩ | ⟨_, hd, h1, hbd, h'⟩
  · omega
  · have hpl : hd.payload = b.drop 8 := by rw [hbd, drop_head]
    rw [← hpl] at hp
    rcases h' with ⟨e, he, h'⟩ | ⟨ps', hps, ⟨hall, m', h', hk', hh, hu, hf⟩ | ⟨hall, e, he, h'⟩⟩
    · rw [he] at hp; cases hp
    · rw [hps] at hp; cases hp
      refine .inl ⟨?_, m', h', hk', by rw [h1, hh], hu, ?_⟩
      · intro q hq
        obtain ⟨p, hp, rfl⟩ := List.mem_map.mp hq
        exact (mem_knownTags k p.tag).mp (hall p hp)
      · intro n hn
        rw [← lastWith_value, hf n hn]
        cases hl : lastWith (UInt16.ofNat n.tag) ps with
        | none => rfl
        | some p =>
          obtain ⟨hm, ht⟩ := Codec.lastWith_mem hl
          exact ⟨p, rfl, (tag_ofNat n _).mpr ht, rfl, parseMulti_consistent hps p hm⟩
    · rw [hps] at hp; cases hp
      refine .inr ⟨?_, e, h', he⟩
      apply Decidable.byContradiction
      intro hne
      apply hall
      intro p hp
      rw [mem_knownTags]
      apply Decidable.byContradiction
      intro hnn
      exact hne ⟨_, List.mem_map.mpr ⟨p, hp, rfl⟩, fun n hn e => hnn ⟨n, hn, e⟩⟩

/-- C27: `Generic` appends to its old parameters and accepts every tag. -/
theorem c27_generic (g : Generic) (b : Bytes) (hb : 8 ≤ b.length)
    (qs : List (Nat × Bytes)) (hq : ParamSeq (b.drop 8) qs) :
    ∃ g', (M3UA.generic g).unmarshalBinary b = .ok (.generic g') ∧ Header.parse b = .ok g'.header ∧
      ∃ new, g'.params = g.params ++ new ∧ new.map (fun p => (p.tag.toNat, p.data)) = qs ∧
        ∀ p ∈ new, p.length.toNat = 4 + p.data.length := by
  obtain ⟨ps, hp, rfl⟩ := seq_parse hq
  rcases M3UA.unmarshal_generic g b with ⟨_, _⟩ | ⟨_, hd, h1, hbd, h'⟩
  · omega
  · have hpl : hd.payload = b.drop 8 := by rw [hbd, drop_head]
    rw [← hpl] at hp
    rcases h' with ⟨e, he, h'⟩ | ⟨ps', hps, h'⟩
    · rw [he] at hp; cases hp
    · rw [hps] at hp; cases hp
      exact ⟨_, h', h1, ps, rfl, rfl, parseMulti_consistent hps⟩

/-- C23, C24: `messages.Parse` on input whose class and type select kind `k` and whose body is the
parameter sequence `qs`. -/
theorem c24_parse (b : Bytes) (hb : 8 ≤ b.length) (k : Kind)
    (hk : k.cls * 16 + k.typ = ((b.getD 2 0).toNat * 16) % 256 ||| (b.getD 3 0).toNat)
    (qs : List (Nat × Bytes)) (hq : ParamSeq (b.drop 8) qs) :
    ((∀ q ∈ qs, ∃ n ∈ k.params, q.1 = n.tag) ∧
      ∃ m, M3UA.parse b = .ok m ∧ m.kind = some k ∧ Header.parse b = .ok m.header ∧
        ∀ n ∈ k.params, match Spec.lastValue n qs with
          | some v => ∃ p, m.field n = some p ∧ p.tag.toNat = n.tag ∧ p.data = v ∧
              p.length.toNat = 4 + v.length
          | none => m.field n = none) ∨
    ((∃ q ∈ qs, ∀ n ∈ k.params, q.1 ≠ n.tag) ∧
      ∃ e, M3UA.parse b = .err e ∧ e.root = .msgInvalidParameter) := by
  have hs : M3UA.selected (b.getD 2 0) (b.getD 3 0) = some k := by
    rw [M3UA.selected, ← hk]; cases k <;> rfl
  rw [M3UA.parse_long b (by omega), hs]
  have he : ∀ n, (M3UA.empty (some k)).field n = none := by
    intro n; cases k <;> cases n <;> rfl
  have := c27_typed _ k (M3UA.empty_kind (some k)) b hb qs hq
  simp only [he] at this
  rcases this with ⟨h1, m', h2, h3, h4, _, h5⟩ | h
  · exact .inl ⟨h1, m', h2, h3, h4, h5⟩
  · exact .inr h

/-- C23, in one line. -/
theorem c23_accept_iff (b : Bytes) (hb : 8 ≤ b.length) (k : Kind)
    (hk : k.cls * 16 + k.typ = ((b.getD 2 0).toNat * 16) % 256 ||| (b.getD 3 0).toNat)
    (qs : List (Nat × Bytes)) (hq : ParamSeq (b.drop 8) qs) :
    (∃ m, M3UA.parse b = .ok m) ↔ ∀ q ∈ qs, ∃ n ∈ k.params, q.1 = n.tag := by
  rcases c24_parse b hb k hk qs hq with ⟨h, m, hm, _⟩ | ⟨⟨q, hq, h⟩, e, he, _⟩
  · exact ⟨fun _ => h, fun _ => ⟨m, hm⟩⟩
  · constructor
    · rintro ⟨m, hm⟩; rw [he] at hm; cases hm
    · intro h'; obtain ⟨n, hn, e⟩ := h' q hq; exact absurd e (h n hn)

/-- C23: if class and type select no known message, every parameter sequence is accepted. -/
theorem c23_generic (b : Bytes) (hb : 8 ≤ b.length)
    (hk : ∀ k : Kind, k.cls * 16 + k.typ ≠ ((b.getD 2 0).toNat * 16) % 256 ||| (b.getD 3 0).toNat)
    (qs : List (Nat × Bytes)) (hq : ParamSeq (b.drop 8) qs) :
    ∃ g, M3UA.parse b = .ok (.generic g) ∧ Header.parse b = .ok g.header ∧
      g.params.map (fun p => (p.tag.toNat, p.data)) = qs := by
  have hs : M3UA.selected (b.getD 2 0) (b.getD 3 0) = none := by
    rw [M3UA.selected, List.find?_eq_none]
    intro k _; simpa using hk k
  rw [M3UA.parse_long b (by omega), hs]
  obtain ⟨g', h1, h2, new, h3, h4, _⟩ := c27_generic Generic.zero b hb qs hq
  refine ⟨g', h1, h2, ?_⟩
  rw [h3]; exact h4

example : ∃ g, M3UA.parse [1, 0, 9, 1, 0, 0, 0, 16, 0, 4, 0, 5, 7, 0, 0, 0] = .ok (.generic g) ∧ g.params = [⟨4, 5, [7]⟩] := ⟨_, rfl, rfl⟩

/-- C23: a body that is no parameter sequence is refused by every type. -/
theorem c23_bad_body (b : Bytes) (hq : ∀ qs, ¬ ParamSeq (b.drop 8) qs) : ∃ e, M3UA.parse b = .err e := by
  rcases c20_parse b with ⟨m, hm⟩ | ⟨e, he, _⟩
  · exfalso
    obtain ⟨h8, _⟩ := parse_kind b m hm
    rw [M3UA.parse_long b (by omega)] at hm
    have fin : ∀ hd : Header, b = hd.head ++ hd.payload → ∀ ps, parseMultiParams hd.payload = .ok ps → False := by
      intro hd hbd ps hps
      have hpl : hd.payload = b.drop 8 := by rw [hbd, drop_head]
      rw [hpl] at hps
      exact hq _ (paramSeq_of_parse hps)
    cases hs : M3UA.selected (b.getD 2 0) (b.getD 3 0) with
    | none =>
      rw [hs] at hm
      rcases M3UA.unmarshal_generic Generic.zero b with ⟨_, _⟩ | ⟨_, hd, _, hbd, ⟨e, he, h'⟩ | ⟨_, hps, h'⟩⟩
      · omega
      · rw [M3UA.empty, h'] at hm; cases hm
      · exact fin hd hbd _ hps
    | some k =>
      rw [hs] at hm
      rcases M3UA.unmarshal_typed _ k (M3UA.empty_kind (some k)) b with ⟨_, _⟩ | ⟨_, hd, _, hbd, h'⟩
      · omega
      · rcases h' with ⟨_, he, h'⟩ | ⟨_, hps, _⟩
        · rw [h'] at hm; cases hm
        · exact fin hd hbd _ hps
  · exact ⟨e, he⟩

-- two Info Strings in an ASP Down: the second one is kept
example : ParamSeq [0, 4, 0, 5, 0x61, 0, 0, 0, 0, 4, 0, 5, 0x62, 0, 0, 0] [(4, [0x61]), (4, [0x62])] :=
  .cons 4 [0x61] [0, 0, 0] _ _ (by decide) (by decide) (by decide)
    (.cons 4 [0x62] [0, 0, 0] [] [] (by decide) (by decide) (by decide) .nil)
/-- For `c23_accept_iff`: an ASP Down with two INFO Strings, the second counts. -/
example : ∃ m, M3UA.parse ([1, 0, 3, 2, 0, 0, 0, 24] ++
    [0, 4, 0, 5, 0x61, 0, 0, 0, 0, 4, 0, 5, 0x62, 0, 0, 0]) = .ok m ∧
    m.field .infoString = some ⟨4, 5, [0x62]⟩ := ⟨_, rfl, rfl⟩
-- an unknown parameter in an ASP Down
example : M3UA.parse ([1, 0, 3, 2, 0, 0, 0, 16] ++ [0, 5, 0, 5, 0x61, 0, 0, 0])
    = .err .msgInvalidParameter := by decide

/-! ### C25, C26: re-encoding -/

theorem selected_of_parse {b : Bytes} {m : M3UA} (h : M3UA.parse b = .ok m) :
    M3UA.selected m.header.cls m.header.typ = m.kind ∧ Header.parse b = .ok m.header := by
  obtain ⟨h8, hk⟩ := parse_kind b m h
  have hh : Header.parse b = .ok m.header := by
    rw [M3UA.parse_long b (by omega)] at h
    cases hs : M3UA.selected (b.getD 2 0) (b.getD 3 0) with
    | none =>
      rw [hs] at h
      rcases M3UA.unmarshal_generic Generic.zero b with ⟨_, h'⟩ | ⟨_, hd, hd1, _, ⟨e, he, h'⟩ | ⟨_, _, h'⟩⟩ <;>
        rw [M3UA.empty, h'] at h <;> cases h
      exact hd1
    | some k =>
      rw [hs] at h
      rcases M3UA.unmarshal_typed _ k (M3UA.empty_kind _) b with ⟨_, h'⟩ | ⟨_, hd, hd1, _, h'⟩
      · rw [h'] at h; cases h
      · rcases h' with ⟨_, he, h'⟩ | ⟨_, _, ⟨_, m', h', hk, hh, _⟩ | ⟨_, _, he, h'⟩⟩
        · rw [h'] at h; cases h
        · rw [h'] at h; cases h; rw [hd1, hh]
        · rw [h'] at h; cases h
  refine ⟨?_, hh⟩
  rw [hk]
  rcases Header.parse_total b with ⟨_, _⟩ | ⟨_, hd, h1, h2⟩
  · omega
  · rw [hh] at h1; cases h1
    rw [h2]; rfl

/-- C25: whatever `messages.Parse` returns can be marshalled, and parsing the result gives a message
of the same type with the same header fields and parameters. -/
theorem c25_stable (b : Bytes) (m : M3UA) (h : M3UA.parse b = .ok m) :
    ∃ bs m', m.Encodes bs ∧ M3UA.parse bs = .ok m' ∧ m'.kind = m.kind ∧
      (∀ n, m'.field n = m.field n) ∧ m'.genericParams = m.genericParams ∧
      m'.unusedField = m.unusedField ∧
      m'.header = { m.header with payload := bs.drop 8 } ∧ m'.Encodes bs := by
  refine ⟨_, m.cached, M3UA.encodes_iff.mpr rfl, ?_, ?_, ?_, ?_, ?_, ?_, ?_⟩
  · obtain ⟨hs, hh⟩ := selected_of_parse h
    obtain ⟨h8, hk⟩ := parse_kind b m h
    rw [M3UA.parse_long b (by omega), ← hk] at h
    cases hkm : m.kind with
    | none =>
      rw [hkm] at hs h
      rw [parse_empty_of_header, hs]
      rcases M3UA.unmarshal_generic Generic.zero b with ⟨_, h'⟩ | ⟨_, hd, hd1, _, ⟨e, he, h'⟩ | ⟨ps, hps, h'⟩⟩ <;>
        rw [M3UA.empty, h'] at h <;> cases h
      have hc := parseMulti_consistent hps
      simp only [M3UA.empty, M3UA.unmarshalBinary, Generic.unmarshalBinary]
      rw [Header.parse_head]
      simp only [Res.bind_ok]
      have e : (M3UA.generic ⟨hd, Generic.zero.params ++ ps⟩).bodyBytes = ps.flatMap Param.encode := rfl
      rw [e, parseMulti_encode ps hc]
      rfl
    | some k =>
      rw [hkm] at h hs
      obtain ⟨M, C, inj, v, he⟩ := exists_view k
      obtain ⟨x, rfl⟩ := v.surj m hkm
      rw [he, v.unmarshalBinary] at h
      cases hx : C.unmarshalBinary C.zero b with
      | ok y =>
        rw [hx] at h
        have : y = x := v.inj_inj (Res.ok.inj h)
        subst this
        obtain ⟨h1, h2, h3, _⟩ := Codec.parsed_tagged hx
        have hb : (inj y).bodyBytes = body (C.flds y) := by
          rw [M3UA.bodyBytes, M3UA.wireParams_typed hkm, v.flds]; rfl
        rw [parse_empty_of_header, hs, he, v.unmarshalBinary, hb, M3UA.cached, hb, ← M3UA.view_setHdr v,
          Codec.parse_encode y h1 h2 h3]
        rfl
      | err e => rw [hx] at h; cases h
      | panic => rw [hx] at h; cases h
      | diverge => rw [hx] at h; cases h
  · simp [M3UA.cached]
  · simp [M3UA.cached]
  · simp [M3UA.cached]
  · simp [M3UA.cached]
  · simp [M3UA.cached]
  · rw [M3UA.encodes_iff]; simp [M3UA.cached, M3UA.bodyBytes, Header.head]

example : ∃ m, M3UA.parse ([1, 0, 3, 2, 0, 0, 0, 99] ++
    [0, 4, 0, 5, 0x61, 0, 0, 0, 0, 4, 0, 5, 0x62]) = .ok m := ⟨_, rfl⟩

/-- C26: marshalling twice gives the same bytes, and marshalling changes nothing but the cached
payload. -/
theorem c26_repeatable (m : M3UA) :
    ∃ m' bs, m.marshalBinary = .ok (m', bs) ∧ m'.marshalBinary = .ok (m', bs) ∧
      m'.kind = m.kind ∧ m'.header = { m.header with payload := bs.drop 8 } ∧
      (∀ n, m'.field n = m.field n) ∧ m'.unusedField = m.unusedField ∧
      m'.genericParams = m.genericParams ∧ m'.marshalLen = m.marshalLen := by
  refine ⟨_, _, M3UA.marshalBinary_exact m, ?_, ?_, ?_, ?_, ?_, ?_, ?_⟩
  · rw [M3UA.marshalBinary_exact]
    simp [M3UA.cached, M3UA.bodyBytes, Header.head]
  all_goals simp [M3UA.cached, M3UA.marshalLen_eq, M3UA.bodyBytes]

/-! ### C28: unambiguous encodings -/

/-- C28: two constructed, well-tagged messages with the same bytes are equal. -/
theorem c28_injective (m m' : M3UA) (h : M3UA.Constructed m) (h' : M3UA.Constructed m')
    (hw : m.WellTagged) (hw' : m'.WellTagged) (bs : Bytes) (he : m.Encodes bs) (he' : m'.Encodes bs) :
    m = m' := by
  have aux : ∀ x : M3UA, M3UA.Constructed x → x.WellTagged → x.Encodes bs →
      M3UA.parse bs = .ok x.cached ∧ x.unusedField = none ∧ x.genericParams = [] ∧
      x.header.payload = [] := by
    intro x hx hwx hex
    obtain ⟨k, hk, hh, hu, fs, hf⟩ := hx.facts
    rw [M3UA.encodes_iff] at hex
    subst hex
    refine ⟨?_, hu, ?_, by rw [hh]⟩
    · apply parse_typed x k hk hu
      · rw [hh]; exact selected_own k
      · exact fun n p hp => (hwx n p hp).1
      · exact Constructed_consistent hx fun n p hp => (hwx n p hp).2
    · cases x <;> first | rfl | (simp [M3UA.kind] at hk)
  obtain ⟨p1, u1, g1, y1⟩ := aux m h hw he
  obtain ⟨p2, u2, g2, y2⟩ := aux m' h' hw' he'
  have hc : m.cached = m'.cached := Res.ok.inj (p1.symm.trans p2)
  apply M3UA.ext'
  · have := congrArg M3UA.kind hc; simpa [M3UA.cached] using this
  · have := congrArg M3UA.header hc
    simp only [M3UA.cached, M3UA.header_withHeader, Header.mk.injEq] at this
    obtain ⟨a, b, c, d, e, _⟩ := this
    cases hm : m.header; cases hm' : m'.header
    simp_all
  · intro n; have := congrArg (fun x => M3UA.field x n) hc; simpa [M3UA.cached] using this
  · rw [u1, u2]
  · rw [g1, g2]

example : M3UA.Constructed (.aspUp (AspUp.new (some (Param.newUint32Val 0x11 7)) none)) ∧
    (M3UA.aspUp (AspUp.new (some (Param.newUint32Val 0x11 7)) none)).WellTagged := by
  refine ⟨.aspUp _ _, ?_⟩
  intro n p hp
  cases n <;> simp [M3UA.field, AspUp.new, AspUp.setLength] at hp
  subst hp; decide

/-! ### C29, C30: the length field -/

/-- C29: replacing the length field by any other four bytes changes nothing but `Header.Length` of
the result (and never turns success into failure or vice versa). -/
theorem c29_length_ignored (v r c t : UInt8) (l l' : Bytes) (hl : l.length = 4) (hl' : l'.length = 4)
    (d : Bytes) :
    (∀ m, M3UA.parse ([v, r, c, t] ++ l ++ d) = .ok m →
      ∃ m', M3UA.parse ([v, r, c, t] ++ l' ++ d) = .ok m' ∧ m'.kind = m.kind ∧
        (∀ n, m'.field n = m.field n) ∧ m'.genericParams = m.genericParams ∧
        m'.header = { m.header with length := m'.header.length } ∧
        m'.header.length.toNat = field32 l' 0) ∧
    (∀ e, M3UA.parse ([v, r, c, t] ++ l ++ d) = .err e → M3UA.parse ([v, r, c, t] ++ l' ++ d) = .err e) := by
  obtain ⟨l0, l1, l2, l3, rfl⟩ : ∃ a b c d, l = [a, b, c, d] := by
    match l, hl with | [a, b, c, d], _ => exact ⟨a, b, c, d, rfl⟩
  obtain ⟨k0, k1, k2, k3, rfl⟩ : ∃ a b c d, l' = [a, b, c, d] := by
    match l', hl' with | [a, b, c, d], _ => exact ⟨a, b, c, d, rfl⟩
  simp only [List.cons_append, List.nil_append]
  rw [M3UA.parse_long _ (by simp), M3UA.parse_long _ (by simp)]
  simp only [List.getD_cons_succ, List.getD_cons_zero]
  have hlen : (k3.toUInt32 ||| (k2.toUInt32 <<< 8) ||| (k1.toUInt32 <<< 16) ||| (k0.toUInt32 <<< 24)).toNat
      = field32 [k0, k1, k2, k3] 0 := get32_val ..
  cases hs : M3UA.selected c t with
  | none =>
    simp only [M3UA.empty, M3UA.unmarshalBinary, Generic.unmarshalBinary, Header.parse_cons, Res.bind_ok]
    rcases parseMulti_total d with ⟨ps, h2⟩ | h2 | h2
    · constructor
      · intro m hm
        simp only [h2, Res.bind_ok, Res.pure_eq, Res.ok.injEq] at hm ⊢
        subst hm
        exact ⟨_, rfl, rfl, fun n => rfl, rfl, rfl, hlen⟩
      · intro e he
        simp only [h2, Res.bind_ok, Res.pure_eq] at he
        cases he
    · constructor
      · intro m hm; simp [h2] at hm
      · intro e he; simpa [h2] using he
    · constructor
      · intro m hm; simp [h2] at hm
      · intro e he; simpa [h2] using he
  | some k =>
    obtain ⟨M, C, inj, vw, he⟩ := exists_view k
    rw [he, vw.unmarshalBinary, vw.unmarshalBinary, Codec.unmarshal_exact, Codec.unmarshal_exact,
      Header.parse_cons, Header.parse_cons]
    simp only [Res.bind_ok]
    rcases parseMulti_total d with ⟨ps, h2⟩ | h2 | h2
    · simp only [h2, Res.bind_ok]
      by_cases hall : ∀ p ∈ ps, p.tag ∈ Codec.tags M
      · simp only [if_pos hall, Res.bind_ok]
        constructor
        · intro m hm
          cases hm
          refine ⟨_, rfl, by rw [vw.kind, vw.kind], ?_, ?_, ?_, ?_⟩
          · intro n
            by_cases hn : n ∈ k.params
            · obtain ⟨i, hi, rfl⟩ := List.mem_iff_getElem.mp hn
              have e1 := fun h : Header => vw.flds (Codec.store (C.setHdr C.zero h) ps)
              simp only [Codec.flds_store_map, Codec.flds_setHdr] at e1
              have e2 := fun h : Header => congrArg (fun l => l[i]?) (e1 h)
              simp only [List.getElem?_map, List.getElem?_eq_getElem hi, Option.map_some] at e2
              exact Option.some.inj ((e2 _).trans (e2 _).symm)
            · rw [vw.field_other _ _ hn, vw.field_other _ _ hn]
          · have e : ∀ m : M3UA, m.kind = some k → m.genericParams = [] := by
              intro m hm; cases m <;> first | rfl | (simp [M3UA.kind] at hm)
            rw [e _ (vw.kind _), e _ (vw.kind _)]
          · rw [vw.header, vw.header, Codec.hdr_store, Codec.hdr_store, Codec.hdr_setHdr, Codec.hdr_setHdr]
          · rw [vw.header, Codec.hdr_store, Codec.hdr_setHdr]; exact hlen
        · intro e he; cases he
      · simp only [if_neg hall]
        constructor
        · intro m hm; cases hm
        · intro e he; exact he
    · simp only [h2, Res.bind_err]
      exact ⟨fun m hm => by simp at hm, fun e he => he⟩
    · simp only [h2, Res.bind_err]
      exact ⟨fun m hm => by simp at hm, fun e he => he⟩

example : ∃ m, M3UA.parse ([1, 0, 3, 1] ++ [0xff, 0xff, 0xff, 0xff] ++ []) = .ok m := ⟨_, rfl⟩

/-- C30: size and length field of a constructed message. -/
theorem c30_length (m : M3UA) (h : M3UA.Constructed m) (bs : Bytes) (he : m.Encodes bs) :
    bs.length = m.marshalLen ∧ bs.length % 4 = 0 ∧ 8 ≤ bs.length ∧
      (bs.length < 2 ^ 32 → field32 bs 4 = bs.length) := by
  obtain ⟨k, hk, hh, _⟩ := h.facts
  rw [M3UA.encodes_iff] at he
  have hlen : bs.length = 8 + m.bodyBytes.length := by rw [he]; simp
  have hmod : m.bodyBytes.length % 4 = 0 := by
    rw [M3UA.bodyBytes]
    induction m.wireParams with
    | nil => rfl
    | cons p ps ih =>
      have := p.marshalLen_mod
      rw [List.flatMap_cons, List.length_append, p.encode_length]
      omega
  refine ⟨by rw [hlen, M3UA.marshalLen_eq], by omega, by omega, ?_⟩
  intro hlt
  have hL : m.header.length = UInt32.ofNat bs.length := by rw [hh, hlen, M3UA.marshalLen_eq]
  have e : bs = [m.header.version, m.header.reserved, m.header.cls, m.header.typ] ++
      be32 bs.length ++ m.bodyBytes := by
    conv => lhs; rw [he, Header.head, hL, M3UA.u32bytes_ofNat]
  have e2 : field32 bs 4 = field32 ([m.header.version, m.header.reserved, m.header.cls, m.header.typ] ++
      be32 bs.length ++ m.bodyBytes) 4 := congrArg (fun x => field32 x 4) e
  rw [e2]
  generalize bs.length = n at hlt
  simp only [be32, field32, List.cons_append, List.nil_append, List.getD_cons_succ, List.getD_cons_zero,
    UInt8.toNat_ofNat']
  omega

example : (M3UA.aspUp (AspUp.new (some (Param.newUint32Val 0x11 7)) none)).marshalLen = 16 := rfl

end M3
