import Verif.Model.Held
import Verif.Props.Messages

/-! Property C101: what a call of `UnmarshalBinary` that fails leaves behind, and messages without a header. -/

set_option autoImplicit false

namespace M3

open Msg
open Spec (ParamSeq Kind PName)

/-- The slots of a message for the parameters of its kind after the parameters `qs` were stored one after the other: the last value with the tag of a slot,
or what was there before. -/
def Stored (k : Kind) (qs : List (Nat × Bytes)) (old new : M3UA) : Prop :=
  new.kind = some k ∧ ∀ n ∈ k.params, match Spec.lastValue n qs with
    | some v => ∃ p, new.field n = some p ∧ p.tag.toNat = n.tag ∧ p.data = v ∧ p.length.toNat = 4 + v.length
    | none => new.field n = old.field n

/-- Two messages agree in everything but the header. -/
structure SameParams (a b : M3UA) : Prop where
  kind : b.kind = a.kind
  field : ∀ n, b.field n = a.field n
  generic : ∀ g, a = .generic g → ∃ h, b = .generic { g with header := h }

namespace Held

theorem exists_view (k : Kind) : ∃ (M : Type) (_ : Codec M) (inj : M → M3UA), View k M inj ∧
    (∀ y p, (inj y).setParam p = (Codec.setParam y p >>= fun m => .ok (inj m))) ∧
    (∀ y h, (inj y).putHeader h = inj (Codec.setHdr y h)) := by
  cases k
  · exact ⟨_, _, _, view_error, fun _ _ => rfl, fun _ _ => rfl⟩
  · exact ⟨_, _, _, view_notify, fun _ _ => rfl, fun _ _ => rfl⟩
  · exact ⟨_, _, _, view_data, fun _ _ => rfl, fun _ _ => rfl⟩
  · exact ⟨_, _, _, view_duna, fun _ _ => rfl, fun _ _ => rfl⟩
  · exact ⟨_, _, _, view_dava, fun _ _ => rfl, fun _ _ => rfl⟩
  · exact ⟨_, _, _, view_daud, fun _ _ => rfl, fun _ _ => rfl⟩
  · exact ⟨_, _, _, view_scon, fun _ _ => rfl, fun _ _ => rfl⟩
  · exact ⟨_, _, _, view_dupu, fun _ _ => rfl, fun _ _ => rfl⟩
  · exact ⟨_, _, _, view_drst, fun _ _ => rfl, fun _ _ => rfl⟩
  · exact ⟨_, _, _, view_aspUp, fun _ _ => rfl, fun _ _ => rfl⟩
  · exact ⟨_, _, _, view_aspDown, fun _ _ => rfl, fun _ _ => rfl⟩
  · exact ⟨_, _, _, view_heartbeat, fun _ _ => rfl, fun _ _ => rfl⟩
  · exact ⟨_, _, _, view_aspUpAck, fun _ _ => rfl, fun _ _ => rfl⟩
  · exact ⟨_, _, _, view_aspDownAck, fun _ _ => rfl, fun _ _ => rfl⟩
  · exact ⟨_, _, _, view_heartbeatAck, fun _ _ => rfl, fun _ _ => rfl⟩
  · exact ⟨_, _, _, view_aspActive, fun _ _ => rfl, fun _ _ => rfl⟩
  · exact ⟨_, _, _, view_aspInactive, fun _ _ => rfl, fun _ _ => rfl⟩
  · exact ⟨_, _, _, view_aspActiveAck, fun _ _ => rfl, fun _ _ => rfl⟩
  · exact ⟨_, _, _, view_aspInactiveAck, fun _ _ => rfl, fun _ _ => rfl⟩

variable {k : Kind} {M : Type} [C : Codec M] {inj : M → M3UA}

/-- The loop, if all tags are known. -/
theorem keep_all (hs : ∀ y p, (inj y).setParam p = (Codec.setParam y p >>= fun m => .ok (inj m))) (y : M) (ps : List Param)
    (h : ∀ p ∈ ps, p.tag ∈ Codec.tags M) : keep (inj y) ps = (full (inj (Codec.store y ps)), .ok ()) := by
  induction ps generalizing y with
  | nil => rfl
  | cons p ps ih =>
    rw [keep, hs, Codec.setParam_eq]
    cases hi : tagIdx (Codec.tags M) p.tag with
    | none => exact absurd (h p (by simp)) (tagIdx_eq_none.mp hi)
    | some i =>
      simp only [Res.bind_ok]
      rw [ih _ fun q hq => h q (by simp [hq])]
      simp only [Codec.store, List.foldl_cons, hi]

/-- The loop, up to the first unknown tag. -/
theorem keep_stop (hs : ∀ y p, (inj y).setParam p = (Codec.setParam y p >>= fun m => .ok (inj m))) (y : M) (pre : List Param) (q : Param)
    (post : List Param) (h : ∀ p ∈ pre, p.tag ∈ Codec.tags M) (hq : q.tag ∉ Codec.tags M) :
    keep (inj y) (pre ++ q :: post) = (full (inj (Codec.store y pre)), .err (Codec.bad M)) := by
  induction pre generalizing y with
  | nil =>
    rw [List.nil_append, keep, hs, Codec.setParam_eq, tagIdx_eq_none.mpr hq]
    rfl
  | cons p ps ih =>
    rw [List.cons_append, keep, hs, Codec.setParam_eq]
    cases hi : tagIdx (Codec.tags M) p.tag with
    | none => exact absurd (h p (by simp)) (tagIdx_eq_none.mp hi)
    | some i =>
      simp only [Res.bind_ok]
      rw [ih _ fun q hq => h q (by simp [hq])]
      simp only [Codec.store, List.foldl_cons, hi]

/-- A list with a bad element has a first one. -/
theorem first_bad {α : Type} (P : α → Prop) [DecidablePred P] (l : List α) (h : ¬ ∀ x ∈ l, P x) :
    ∃ pre q post, l = pre ++ q :: post ∧ (∀ x ∈ pre, P x) ∧ ¬ P q := by
  induction l with
  | nil => exact absurd (by simp) h
  | cons a l ih =>
    by_cases ha : P a
    · obtain ⟨pre, q, post, rfl, h1, h2⟩ := ih fun hl => h (by simpa using ⟨ha, hl⟩)
      exact ⟨a :: pre, q, post, rfl, by simpa using ⟨ha, h1⟩, h2⟩
    · exact ⟨[], a, l, rfl, by simp, ha⟩

theorem unmarshal_typed (v : Held) (hk : v.msg.kind = some k) {b : Bytes} {h : Header} (hh : Header.parse b = .ok h) {ps : List Param}
    (hp : parseMultiParams h.payload = .ok ps) : v.unmarshalBinary b = keep (v.msg.putHeader h) ps := by
  unfold unmarshalBinary
  rw [hh]
  simp only [hp]
  obtain ⟨m, _⟩ := v
  cases m <;> first | rfl | (cases hk; done)

end Held

open Held

/-- C101: whether a call succeeds, and with which error it fails, is as described elsewhere (C18, C20, C23, C27, C98), whatever the variable holds,
and so is the message if it succeeds. -/
theorem c101_outcome (v : Held) (b : Bytes) :
    (∃ m, v.msg.unmarshalBinary b = .ok m ∧ v.unmarshalBinary b = (.full m, .ok ())) ∨
    (∃ e v', v.msg.unmarshalBinary b = .err e ∧ v.unmarshalBinary b = (v', .err e)) := by
  rcases Header.parse_total b with ⟨hl, h1⟩ | ⟨hl, h, h1, hb⟩
  · refine .inr ⟨.msgTooShortToParse, ⟨v.msg, false⟩, ?_, by simp only [unmarshalBinary, h1]⟩
    cases hk : v.msg.kind with
    | some k =>
      rcases M3UA.unmarshal_typed _ k hk b with ⟨_, h⟩ | ⟨_, _⟩
      · exact h
      · omega
    | none =>
      obtain ⟨m, _⟩ := v
      cases m <;> first | (cases hk; done) | skip
      rcases M3UA.unmarshal_generic _ b with ⟨_, h⟩ | ⟨_, _⟩
      · exact h
      · omega
  · cases hk : v.msg.kind with
    | none =>
      obtain ⟨m, q⟩ := v
      cases m <;> first | (cases hk; done) | skip
      rename_i g
      rcases M3UA.unmarshal_generic g b with ⟨_, _⟩ | ⟨_, hd, h1', hbd, ⟨e, he, h'⟩ | ⟨ps, hps, h'⟩⟩
      · omega
      · rw [h1] at h1'; cases h1'
        exact .inr ⟨e, .full (M3UA.putHeader h (.generic g)), h', by simp only [unmarshalBinary, h1, he]⟩
      · rw [h1] at h1'; cases h1'
        exact .inl ⟨_, h', by simp only [unmarshalBinary, h1, hps]; rfl⟩
    | some k =>
      obtain ⟨M, C, inj, w, hs, hw⟩ := Held.exists_view k
      obtain ⟨y, hy⟩ := w.surj v.msg hk
      rcases parseMulti_total h.payload with ⟨ps, h2⟩ | h2 | h2
      · rw [Held.unmarshal_typed v hk h1 h2, hy, hw, w.unmarshalBinary, Codec.unmarshal_exact, h1]
        simp only [Res.bind_ok, h2]
        by_cases hall : ∀ p ∈ ps, p.tag ∈ Codec.tags M
        · rw [if_pos hall]
          exact .inl ⟨_, rfl, keep_all hs _ _ hall⟩
        · rw [if_neg hall]
          obtain ⟨pre, q, post, rfl, ha, hb⟩ := first_bad _ ps hall
          exact .inr ⟨_, _, rfl, keep_stop hs _ _ _ _ ha hb⟩
      all_goals
        refine .inr ⟨_, .full (v.msg.putHeader h), ?_, by simp only [unmarshalBinary, h1, h2]; rfl⟩
        rw [hy, w.unmarshalBinary, Codec.unmarshal_exact, h1]
        simp only [Res.bind_ok, h2]
        rfl

/-- An ASP Up with an ASP identifier, for examples. -/
def someAspUp : M3UA := .aspUp (AspUp.new (some (Param.newAspIdentifier 7)) none)

/-- Both cases occur. -/
example : (∃ m, (Held.full someAspUp).unmarshalBinary [1, 0, 3, 1, 0, 0, 0, 8] = (.full m, .ok ())) ∧
    ∃ v, (Held.full someAspUp).unmarshalBinary [1, 0, 3] = (v, .err .msgTooShortToParse) := ⟨⟨_, rfl⟩, ⟨_, rfl⟩⟩

/-- C101: bytes that are too short for a header cost the variable its header, and nothing else. -/
theorem c101_short (v : Held) (b : Bytes) (hb : b.length < 8) : v.unmarshalBinary b = (⟨v.msg, false⟩, .err .msgTooShortToParse) := by
  unfold unmarshalBinary
  rw [Header.parse_short b hb]

/-- An ASP Up that was given three bytes: its identifier is still there, its version cannot be asked for. -/
example : ((Held.full someAspUp).unmarshalBinary [1, 0, 3]).1.msg.field .aspIdentifier = some (Param.newAspIdentifier 7) ∧
    ((Held.full someAspUp).unmarshalBinary [1, 0, 3]).1.version = .panic := ⟨rfl, rfl⟩

/-- C101: if what follows the header is not a sequence of parameters, the header is the new one, and the parameters are the old ones. -/
theorem c101_body (v : Held) (b : Bytes) (hb : 8 ≤ b.length) (hq : ∀ qs, ¬ ParamSeq (b.drop 8) qs) :
    ∃ m e, v.unmarshalBinary b = (.full m, .err e) ∧ Header.parse b = .ok m.header ∧ SameParams v.msg m := by
  rcases Header.parse_total b with ⟨hl, h1⟩ | ⟨hl, h, h1, hbd⟩
  · omega
  · have hpl : h.payload = b.drop 8 := by rw [hbd, drop_head]
    have hsame : Header.parse b = .ok (v.msg.putHeader h).header ∧ SameParams v.msg (v.msg.putHeader h) := by
      rw [h1]
      cases v.msg <;> exact ⟨rfl, rfl, fun n => by cases n <;> rfl, by rintro g ⟨⟩ <;> exact ⟨_, rfl⟩⟩
    rcases parseMulti_total h.payload with ⟨ps, h2⟩ | h2 | h2
    · rw [hpl] at h2
      exact absurd (paramSeq_of_parse h2) (hq _)
    all_goals exact ⟨_, _, by simp only [unmarshalBinary, h1, h2]; rfl, hsame⟩

/-- The body ends inside a parameter: the message has version 9 and the old identifier. -/
example : ∃ m, (Held.full someAspUp).unmarshalBinary [9, 0, 3, 1, 0, 0, 0, 16, 0, 0x11, 0, 8, 0, 0] = (.full m, .err .paramInvalidLength) ∧
    m.version = 9 ∧ m.field .aspIdentifier = some (Param.newAspIdentifier 7) := ⟨_, rfl, rfl, rfl⟩

/-- C101: if a parameter does not belong to the message, those before it have been stored, those behind it have not; the header is the new one. -/
theorem c101_unknown (v : Held) (k : Kind) (hk : v.msg.kind = some k) (b : Bytes) (hb : 8 ≤ b.length) (pre post : List (Nat × Bytes))
    (q : Nat × Bytes) (hq : ParamSeq (b.drop 8) (pre ++ q :: post)) (h1 : ∀ x ∈ pre, ∃ n ∈ k.params, x.1 = n.tag)
    (h2 : ∀ n ∈ k.params, q.1 ≠ n.tag) :
    ∃ m e, v.unmarshalBinary b = (.full m, .err e) ∧ e.root = .msgInvalidParameter ∧ Header.parse b = .ok m.header ∧ Stored k pre v.msg m := by
  obtain ⟨ps, hp, he⟩ := seq_parse hq
  rcases Header.parse_total b with ⟨hl, hh⟩ | ⟨hl, h, hh, hbd⟩
  · omega
  · have hpl : h.payload = b.drop 8 := by rw [hbd, drop_head]
    rw [← hpl] at hp
    obtain ⟨pre', rest, rfl, e1, e2⟩ := List.map_eq_append_iff.mp he
    obtain ⟨q', post', rfl, e3, e4⟩ := List.map_eq_cons_iff.mp e2
    subst e1 e3
    obtain ⟨M, C, inj, w, hs, hw⟩ := Held.exists_view k
    obtain ⟨y, hy⟩ := w.surj v.msg hk
    have ha : ∀ p ∈ pre', p.tag ∈ Codec.tags M := fun p hp => by
      rw [w.tags]
      exact (mem_knownTags k p.tag).mpr (h1 _ (List.mem_map.mpr ⟨p, hp, rfl⟩))
    have hb : q'.tag ∉ Codec.tags M := fun hm => by
      rw [w.tags] at hm
      obtain ⟨n, hn, e⟩ := (mem_knownTags k q'.tag).mp hm
      exact h2 n hn e
    refine ⟨inj (Codec.store (C.setHdr y h) pre'), Codec.bad M, ?_, w.bad, ?_, w.kind _, ?_⟩
    · rw [Held.unmarshal_typed v hk hh hp, hy, hw]
      exact keep_stop hs _ _ _ _ ha hb
    · rw [w.header, Codec.hdr_store, Codec.hdr_setHdr, hh]
    · intro n hn
      obtain ⟨i, hi, rfl⟩ := List.mem_iff_getElem.mp hn
      have ht : (Codec.tags M)[i]? = some (UInt16.ofNat k.params[i].tag) := by
        rw [w.tags]; simp [hi]
      have hf := Codec.flds_store (C.setHdr y h) pre' i _ ht
      rw [Codec.flds_setHdr, ← w.flds, ← w.flds] at hf
      have hf : (inj (Codec.store (C.setHdr y h) pre')).field k.params[i] =
          (lastWith (UInt16.ofNat k.params[i].tag) pre').or ((inj y).field k.params[i]) := by simpa [hi] using hf
      rw [← lastWith_value, hf, hy]
      cases hl : lastWith (UInt16.ofNat k.params[i].tag) pre' with
      | none => rfl
      | some p =>
        obtain ⟨hm, ht⟩ := Codec.lastWith_mem hl
        exact ⟨p, rfl, (tag_ofNat _ _).mpr ht, rfl, parseMulti_consistent hp p (by simp [hm])⟩

/-- Identifier 1, a parameter with tag 5, identifier 2: identifier 1 is kept. -/
example : ∃ m, (Held.full someAspUp).unmarshalBinary [1, 0, 3, 1, 0, 0, 0, 28, 0, 0x11, 0, 8, 0, 0, 0, 1, 0, 5, 0, 4, 0, 0x11, 0, 8, 0, 0, 0, 2] =
    (.full m, .err .msgInvalidParameter) ∧ m.field .aspIdentifier = some (Param.newAspIdentifier 1) ∧
    ParamSeq [0, 0x11, 0, 8, 0, 0, 0, 1, 0, 5, 0, 4, 0, 0x11, 0, 8, 0, 0, 0, 2] ([(17, [0, 0, 0, 1])] ++ (5, []) :: [(17, [0, 0, 0, 2])]) :=
  ⟨_, rfl, rfl, .cons 17 [0, 0, 0, 1] [] _ _ (by decide) (by decide) (by decide) (.cons 5 [] [] _ _ (by decide) (by decide) (by decide)
    (.cons 17 [0, 0, 0, 2] [] [] [] (by decide) (by decide) (by decide) .nil))⟩

/-- C101: a variable has a header after a call of `UnmarshalBinary` exactly if the call was given at least eight bytes. -/
theorem c101_header (v : Held) (b : Bytes) : (v.unmarshalBinary b).1.hasHeader = true ↔ 8 ≤ b.length := by
  rcases Header.parse_total b with ⟨hl, h1⟩ | ⟨hl, h, h1, hbd⟩
  · rw [c101_short v b hl]
    simp; omega
  · refine ⟨fun _ => hl, fun _ => ?_⟩
    have hkeep : ∀ m ps, (keep m ps).1.hasHeader = true := by
      intro m ps
      induction ps generalizing m with
      | nil => rfl
      | cons p ps ih =>
        rw [keep]
        split
        · exact ih _
        all_goals rfl
    unfold unmarshalBinary
    rw [h1]
    simp only
    split
    · split
      · rfl
      · exact hkeep _ _
    all_goals rfl

/-- Even bytes that make no sense give the variable a header, if there are eight of them. -/
example : (Held.bare someAspUp).hasHeader = false ∧ ((Held.bare someAspUp).unmarshalBinary [9, 9, 9, 9, 9, 9, 9, 9]).1.hasHeader = true ∧
    ((Held.full someAspUp).unmarshalBinary [9, 9, 9, 9, 9, 9, 9]).1.hasHeader = false := by decide +kernel

/-- C101: what can be done with a variable without a header: its version cannot be asked for, and it cannot be marshalled (both panic), unless the
buffer is too short, which is noticed before. The length can be asked for; the class and the type as well, except for a `Generic`. -/
theorem c101_nil (m : M3UA) :
    (Held.bare m).version = .panic ∧ (Held.bare m).marshalBinary = .panic ∧
    (∀ b : Slice, (Held.bare m).marshalTo b = if b.len < m.marshalLen then .err .msgTooShortToMarshal else .panic) ∧
    (∀ k, m.kind = some k → (Held.bare m).messageClass = .ok (UInt8.ofNat k.cls) ∧ (Held.bare m).messageType = .ok (UInt8.ofNat k.typ)) ∧
    (m.kind = none → (Held.bare m).messageClass = .panic ∧ (Held.bare m).messageType = .panic) := by
  refine ⟨rfl, ?_, fun b => rfl, ?_, ?_⟩
  · simp only [Held.marshalBinary, Held.bare, Bool.false_eq_true, if_false, Held.marshalTo, Slice.make, Nat.lt_irrefl]
    rfl
  · intro k hk
    cases m <;> cases hk <;> exact ⟨rfl, rfl⟩
  · intro hk
    cases m <;> first | (cases hk; done) | exact ⟨rfl, rfl⟩

/-- The same variable with and without its header. -/
example : someAspUp.kind = some .aspUp ∧ (Held.full someAspUp).version = .ok 1 ∧ (Held.bare someAspUp).version = .panic ∧
    (Held.bare someAspUp).messageType = .ok 1 ∧ (Held.bare someAspUp).marshalLen = 16 ∧
    (Held.bare someAspUp).marshalTo (Slice.make 15) = .err .msgTooShortToMarshal := by decide +kernel

/-- C101: a failed `UnmarshalBinary` of a parameter changes nothing if there are less than four bytes; otherwise it has stored the tag and the wrong length,
and the value is the old one. -/
theorem c101_param (p : Param) (b : Bytes) :
    (∃ q, Param.parse b = .ok q ∧ p.unmarshalKept b = (q, .ok ())) ∨
    (b.length < 4 ∧ p.unmarshalKept b = (p, .err .paramTooShortToParse)) ∨
    ∃ tag length : UInt16, 4 ≤ b.length ∧ b.take 4 = u16bytes tag ++ u16bytes length ∧ (length.toNat < 4 ∨ b.length < length.toNat) ∧
      p.unmarshalKept b = (⟨tag, length, p.data⟩, .err .paramInvalidLength) := by
  by_cases hb : b.length < 4
  · exact .inr (.inl ⟨hb, by simp [Param.unmarshalKept, hb]⟩)
  · obtain ⟨b0, b1, b2, b3, d, rfl⟩ := Param.four_split b (by omega)
    have hl : ∀ L : UInt16, L < 4 ↔ L.toNat < 4 := fun L => Iff.rfl
    rw [Param.parse_cons]
    simp only [Param.unmarshalKept, if_neg hb]
    generalize hL : b3.toUInt16 ||| (b2.toUInt16 <<< 8) = L
    have hg : (do let t ← getUint16 (← rsub (b0 :: b1 :: b2 :: b3 :: d) 0 2); let l ← getUint16 (← rsub (b0 :: b1 :: b2 :: b3 :: d) 2 4); return (t, l) :
        Res (UInt16 × UInt16)) = .ok (b1.toUInt16 ||| (b0.toUInt16 <<< 8), L) := by
      rw [← hL]
      simp [rsub, getUint16]
    rw [hg]
    by_cases hc : 4 ≤ L.toNat ∧ L.toNat ≤ d.length + 4
    · refine .inl ⟨_, if_pos hc, ?_⟩
      have h0 : ¬ (L.toNat > (b0 :: b1 :: b2 :: b3 :: d).length ∨ L < 4) := by rw [hl]; simp; omega
      simp only [if_neg h0]
      rw [rsub, if_pos ⟨hc.1, by simp; omega⟩]
      simp
    · refine .inr (.inr ⟨b1.toUInt16 ||| (b0.toUInt16 <<< 8), L, by simp, ?_, by simp; omega, ?_⟩)
      · rw [← hL, u16bytes_get, u16bytes_get]
        rfl
      · have h0 : L.toNat > (b0 :: b1 :: b2 :: b3 :: d).length ∨ L < 4 := by rw [hl]; simp; omega
        simp only [if_pos h0]

/-- A parameter with the value `[7]` that was given a length of 200: length and value do not fit together any more, and the next `MarshalBinary` says so
on the wire. -/
example : (Param.new 4 [7]).unmarshalKept [0, 9, 0, 200] = (⟨9, 200, [7]⟩, .err .paramInvalidLength) ∧
    (⟨9, 200, [7]⟩ : Param).marshalBinary = .ok [0, 9, 0, 200, 7, 0, 0, 0] := by decide +kernel

end M3
