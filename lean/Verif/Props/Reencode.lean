import Verif.Props.Messages

/- What becomes of a datagram that is parsed and marshalled again: C104. -/

set_option autoImplicit false
set_option linter.unusedSimpArgs false

namespace M3.Spec

/-- The parameters that are left of `qs` in a message of kind `k`, in the order in which they are sent: for each parameter of that kind the
last one with its tag; all of them if the kind is not known. -/
def kept : Option Kind → List (Nat × List UInt8) → List (Nat × List UInt8)
  | some k, qs => k.params.filterMap fun n => (lastValue n qs).map fun v => (n.tag, v)
  | none, qs => qs

/-- Parameters as they are sent. -/
def tlvs (qs : List (Nat × List UInt8)) : List UInt8 := qs.flatMap fun q => tlv q.1 q.2

end M3.Spec

namespace M3

open Spec Msg

theorem header_take {b : Bytes} {h : Header} (hh : Header.parse b = .ok h) : h.head = b.take 8 := by
  rcases Header.parse_total b with ⟨_, h'⟩ | ⟨h1, h2, h3, h4⟩
  · rw [h'] at hh; cases hh
  · rw [h3] at hh; cases hh
    rw [h4, List.take_append_of_le_length (by simp), List.take_of_length_le (by simp)]

theorem encode_map {ps : List Param} (hp : ∀ p ∈ ps, p.length.toNat = 4 + p.data.length) :
    ps.flatMap Param.encode = tlvs (ps.map fun p => (p.tag.toNat, p.data)) := by
  rw [tlvs, List.flatMap_map]
  induction ps with
  | nil => rfl
  | cons p ps ih =>
    rw [List.flatMap_cons, List.flatMap_cons, ih fun q hq => hp q (.tail _ hq), Param.encode_consistent p (hp p (.head _))]

/-- C104: what is marshalled after parsing: the first eight octets as they were, whatever they say, and then the parameters that were kept,
with complete padding of zeros. -/
theorem c104_bytes (b : Bytes) (m : M3UA) (h : M3UA.parse b = .ok m) (qs : List (Nat × Bytes)) (hq : ParamSeq (b.drop 8) qs) :
    m.Encodes (b.take 8 ++ tlvs (kept m.kind qs)) := by
  obtain ⟨h8, hk⟩ := parse_kind b m h
  obtain ⟨-, hh⟩ := selected_of_parse h
  rw [M3UA.encodes_iff, header_take hh]
  congr 1
  cases hkm : m.kind with
  | none =>
    rw [hkm] at hk
    rw [M3UA.parse_long b (by omega), ← hk] at h
    obtain ⟨g', h1, -, new, h3, h4, h5⟩ := c27_generic Generic.zero b h8 qs hq
    rw [M3UA.empty, h1] at h
    cases h
    rw [M3UA.bodyBytes, M3UA.wireParams, h3, kept, ← h4]
    exact (encode_map h5).symm
  | some k =>
    rw [hkm] at hk
    have hk' := List.find?_some hk.symm
    rcases c24_parse b h8 k (by simpa using hk') qs hq with ⟨-, m', h1, h2, -, h3⟩ | ⟨-, e, h1, -⟩
    · rw [h1] at h; cases h
      rw [M3UA.bodyBytes, M3UA.wireParams_typed hkm, kept]
      clear hk hk' hkm h2
      generalize k.params = l at h3
      induction l with
      | nil => rfl
      | cons n l ih =>
        have ih := ih fun x hx => h3 x (.tail _ hx)
        have h4 := h3 n (.head _)
        rw [List.map_cons, List.filterMap_cons]
        cases hv : lastValue n qs with
        | none =>
          rw [hv] at h4
          simp only [h4, present_none, Option.map_none]
          exact ih
        | some v =>
          rw [hv] at h4
          obtain ⟨p, h5, h6, h7, h8⟩ := h4
          simp only [h5, present_some, Option.map_some, List.flatMap_cons, tlvs]
          rw [← h6, ← h7, Param.encode_consistent p (show p.length.toNat = 4 + p.data.length by rw [h7]; exact h8)]
          exact congrArg _ ih
    · rw [h1] at h; cases h

theorem tlvs_seq (qs : List (Nat × Bytes)) (hq : ∀ q ∈ qs, q.1 < 65536 ∧ q.2.length ≤ maxValue) : ParamSeq (tlvs qs) qs := by
  induction qs with
  | nil => exact .nil
  | cons q qs ih =>
    have := ParamSeq.cons q.1 q.2 (List.replicate (pad q.2.length) 0) (tlvs qs) qs (hq q (.head _)).1 (hq q (.head _)).2 (by simp)
      (ih fun x hx => hq x (.tail _ hx))
    simpa [tlvs, tlv] using this

theorem ParamSeq.bound {b : Bytes} {qs : List (Nat × Bytes)} (h : ParamSeq b qs) : ∀ q ∈ qs, q.1 < 65536 ∧ q.2.length ≤ maxValue := by
  induction h with
  | nil => simp
  | cut t v f h1 h2 h3 => intro q hq; simp only [List.mem_singleton] at hq; subst hq; exact ⟨h1, h2⟩
  | cons t v f r ps h1 h2 h3 h4 ih =>
    intro q hq
    rcases List.mem_cons.mp hq with rfl | hq
    · exact ⟨h1, h2⟩
    · exact ih q hq

theorem lastValue_mem {n : PName} {qs : List (Nat × Bytes)} {v : Bytes} (h : lastValue n qs = some v) : (n.tag, v) ∈ qs := by
  unfold lastValue at h
  obtain ⟨x, h1, rfl⟩ := Option.map_eq_some_iff.mp h
  obtain ⟨h2, h3⟩ := List.mem_filter.mp (List.mem_of_getLast? h1)
  simp only [decide_eq_true_eq] at h3
  rw [← h3]; exact h2

theorem kept_mem {k : Option Kind} {qs : List (Nat × Bytes)} : ∀ q ∈ kept k qs, q ∈ qs := by
  intro q hq
  cases k with
  | none => exact hq
  | some k =>
    obtain ⟨n, -, h2⟩ := List.mem_filterMap.mp hq
    obtain ⟨v, h3, rfl⟩ := Option.map_eq_some_iff.mp h2
    exact lastValue_mem h3

theorem kept_sub (l : List PName) (qs : List (Nat × Bytes)) :
    ((l.filterMap fun n => (lastValue n qs).map fun v => (n.tag, v)).map (·.1)).Sublist (l.map PName.tag) := by
  induction l with
  | nil => exact .slnil
  | cons n l ih =>
    rw [List.filterMap_cons]
    cases lastValue n qs with
    | none => exact .cons _ ih
    | some v => exact .cons_cons _ ih

theorem kept_self (l : List PName) (hn : (l.map PName.tag).Nodup) (qs : List (Nat × Bytes)) (hs : (qs.map (·.1)).Sublist (l.map PName.tag)) :
    (l.filterMap fun n => (lastValue n qs).map fun v => (n.tag, v)) = qs := by
  induction l generalizing qs with
  | nil =>
    have := List.sublist_nil.mp hs
    rw [List.map_eq_nil_iff.mp this]; rfl
  | cons n l ih =>
    obtain ⟨hn1, hn2⟩ := List.nodup_cons.mp hn
    rw [List.filterMap_cons]
    cases qs with
    | nil => simp [lastValue, List.filterMap_eq_nil_iff.mpr]
    | cons q qs =>
      by_cases hq : q.1 = n.tag
      · have hs' : (qs.map (·.1)).Sublist (l.map PName.tag) := by
          rw [List.map_cons, List.map_cons, hq] at hs
          exact List.cons_sublist_cons.mp hs
        have h0 : ∀ x ∈ qs, x.1 ≠ n.tag := fun x hx he => hn1 (hs'.subset (he ▸ List.mem_map.mpr ⟨x, hx, rfl⟩))
        have h1 : lastValue n (q :: qs) = some q.2 := by
          rw [lastValue, List.filter_cons_of_pos (by simpa using hq), List.filter_eq_nil_iff.mpr (by simpa using h0)]
          rfl
        have h2 : ∀ x ∈ l, lastValue x (q :: qs) = lastValue x qs := by
          intro x hx
          rw [lastValue, List.filter_cons_of_neg, ← lastValue]
          simp only [decide_eq_true_eq, hq]
          intro he; exact hn1 (he ▸ List.mem_map.mpr ⟨x, hx, rfl⟩)
        rw [h1]
        simp only [Option.map_some]
        rw [show (n.tag, q.2) = q by rw [← hq]]
        congr 1
        have : ∀ l' : List PName, (∀ x ∈ l', x ∈ l) → (l'.filterMap fun n => (lastValue n (q :: qs)).map fun v => (n.tag, v)) =
            l'.filterMap fun n => (lastValue n qs).map fun v => (n.tag, v) := by
          intro l' hl'
          induction l' with
          | nil => rfl
          | cons x l' ih' => rw [List.filterMap_cons, List.filterMap_cons, h2 x (hl' x (.head _)), ih' fun y hy => hl' y (.tail _ hy)]
        rw [this l fun _ h => h, ih hn2 qs hs']
      · have hs' : ((q :: qs).map (·.1)).Sublist (l.map PName.tag) := by
          rcases List.sublist_cons_iff.mp hs with h | ⟨r, h, -⟩
          · exact h
          · rw [List.map_cons] at h; exact (hq (List.cons.inj h).1).elim
        have h1 : lastValue n (q :: qs) = none := by
          rw [lastValue, List.filter_eq_nil_iff.mpr]; · rfl
          intro x hx he
          simp only [decide_eq_true_eq] at he
          exact hn1 (hs'.subset (he ▸ List.mem_map.mpr ⟨x, hx, rfl⟩))
        rw [h1]
        exact ih hn2 _ hs'

/-- C104: a datagram goes out as it came in exactly if its padding is complete and consists of zeros and, unless its kind is not known, its
parameters come in the order in which this library sends them, none of them twice. -/
theorem c104_identity (b : Bytes) (m : M3UA) (h : M3UA.parse b = .ok m) (qs : List (Nat × Bytes)) (hq : ParamSeq (b.drop 8) qs) :
    m.Encodes b ↔ b.drop 8 = tlvs qs ∧ ∀ k, m.kind = some k → (qs.map (·.1)).Sublist (k.params.map PName.tag) := by
  have hb := M3UA.encodes_iff.mp (c104_bytes b m h qs hq)
  have key : m.Encodes b ↔ b.drop 8 = tlvs (kept m.kind qs) := by
    rw [M3UA.encodes_iff, ← hb]
    conv => lhs; lhs; rw [← List.take_append_drop 8 b]
    exact List.append_right_inj _
  rw [key]
  constructor
  · intro h1
    have h2 : qs = kept m.kind qs := by
      have hs := tlvs_seq (kept m.kind qs) fun q hq' => ParamSeq.bound hq q (kept_mem q hq')
      rw [← h1] at hs
      exact c05_unique _ _ _ hq hs
    refine ⟨h1.trans (by rw [← h2]), fun k hk => ?_⟩
    rw [h2, hk]
    exact kept_sub k.params qs
  · rintro ⟨h1, h2⟩
    rw [h1]
    cases hk : m.kind with
    | none => rfl
    | some k =>
      rw [kept, kept_self k.params (by cases k <;> decide) qs (h2 k hk)]

/-- An ASP Active with its parameters in the order in which they are sent goes out as it came in. -/
example : ∃ m, M3UA.parse [1, 0, 4, 1, 0, 0, 0, 24, 0, 11, 0, 8, 0, 0, 0, 1, 0, 6, 0, 8, 0, 0, 0, 5] = .ok m ∧
    m.Encodes [1, 0, 4, 1, 0, 0, 0, 24, 0, 11, 0, 8, 0, 0, 0, 1, 0, 6, 0, 8, 0, 0, 0, 5] ∧
    ParamSeq [0, 11, 0, 8, 0, 0, 0, 1, 0, 6, 0, 8, 0, 0, 0, 5] [(11, [0, 0, 0, 1]), (6, [0, 0, 0, 5])] :=
  ⟨_, rfl, M3UA.encodes_iff.mpr rfl, .cons 11 [0, 0, 0, 1] [] _ _ (by decide) (by decide) (by decide)
    (.cons 6 [0, 0, 0, 5] [] [] [] (by decide) (by decide) (by decide) .nil)⟩

/-- In the other order it does not: the parameters change places. -/
example : ∃ m, M3UA.parse [1, 0, 4, 1, 0, 0, 0, 24, 0, 6, 0, 8, 0, 0, 0, 5, 0, 11, 0, 8, 0, 0, 0, 1] = .ok m ∧
    m.Encodes [1, 0, 4, 1, 0, 0, 0, 24, 0, 11, 0, 8, 0, 0, 0, 1, 0, 6, 0, 8, 0, 0, 0, 5] :=
  ⟨_, rfl, M3UA.encodes_iff.mpr rfl⟩

theorem tlvs_length (qs : List (Nat × Bytes)) : (tlvs qs).length = (qs.map fun q => 4 + q.2.length + pad q.2.length).sum := by
  induction qs with
  | nil => rfl
  | cons q qs ih =>
    rw [tlvs, List.flatMap_cons, List.length_append, ← tlvs, ih, List.map_cons, List.sum_cons]
    simp [tlv]; omega

/-- C104: the length field is sent as it was received, while what is sent is as long as the parameters kept. -/
theorem c104_length (b : Bytes) (m : M3UA) (h : M3UA.parse b = .ok m) (qs : List (Nat × Bytes)) (hq : ParamSeq (b.drop 8) qs) (bs : Bytes)
    (hb : m.Encodes bs) :
    field32 bs 4 = field32 b 4 ∧ bs.length = 8 + ((kept m.kind qs).map fun q => 4 + q.2.length + pad q.2.length).sum := by
  obtain ⟨h8, -⟩ := parse_kind b m h
  have h1 := M3UA.encodes_iff.mp (c104_bytes b m h qs hq)
  rw [← M3UA.encodes_iff.mp hb] at h1
  obtain ⟨b0, b1, b2, b3, b4, b5, b6, b7, d, rfl⟩ := Header.eight_split b h8
  rw [← h1]
  refine ⟨rfl, ?_⟩
  rw [List.length_append, tlvs_length]
  simp

/-- C104: so a datagram whose length field is right can go out with a wrong one: with a parameter twice, the length is that with both. -/
theorem c104_wrong : ∃ b m bs, M3UA.parse b = .ok m ∧ field32 b 4 = b.length ∧ m.Encodes bs ∧ bs.length < field32 bs 4 :=
  ⟨[1, 0, 3, 2, 0, 0, 0, 24, 0, 4, 0, 5, 0x61, 0, 0, 0, 0, 4, 0, 5, 0x62, 0, 0, 0], _, [1, 0, 3, 2, 0, 0, 0, 24, 0, 4, 0, 5, 0x62, 0, 0, 0], rfl,
    by decide, M3UA.encodes_iff.mpr rfl, by decide⟩

/-- C104: the first passage makes all changes: what went out goes out again as it is. -/
theorem c104_twice (b : Bytes) (m : M3UA) (h : M3UA.parse b = .ok m) (bs : Bytes) (hb : m.Encodes bs) :
    ∃ m', M3UA.parse bs = .ok m' ∧ m'.Encodes bs := by
  obtain ⟨bs', m', h1, h2, -, -, -, -, -, h3⟩ := c25_stable b m h
  rw [M3UA.encodes_iff.mp hb, ← M3UA.encodes_iff.mp h1]
  exact ⟨m', h2, h3⟩

/-- `SetLength` of each type of message (it is not part of the interface `M3UA`, `message.go:88-99`). -/
def _root_.M3.M3UA.setLength : M3UA → M3UA
  | .error m => .error m.setLength
  | .notify m => .notify m.setLength
  | .data m => .data m.setLength
  | .duna m => .duna m.setLength
  | .dava m => .dava m.setLength
  | .daud m => .daud m.setLength
  | .scon m => .scon m.setLength
  | .dupu m => .dupu m.setLength
  | .drst m => .drst m.setLength
  | .aspUp m => .aspUp m.setLength
  | .aspDown m => .aspDown m.setLength
  | .heartbeat m => .heartbeat m.setLength
  | .aspUpAck m => .aspUpAck m.setLength
  | .aspDownAck m => .aspDownAck m.setLength
  | .heartbeatAck m => .heartbeatAck m.setLength
  | .aspActive m => .aspActive m.setLength
  | .aspInactive m => .aspInactive m.setLength
  | .aspActiveAck m => .aspActiveAck m.setLength
  | .aspInactiveAck m => .aspInactiveAck m.setLength
  | .generic m => .generic m.setLength

/-- C104: calling `SetLength` in between makes the length field right, for every message of every kind. -/
theorem c104_setLength (m : M3UA) (bs : Bytes) (h : m.setLength.Encodes bs) (hl : bs.length < 2 ^ 32) : field32 bs 4 = bs.length := by
  have h1 : m.setLength.header.length = UInt32.ofNat m.setLength.marshalLen := by cases m <;> rfl
  have h2 := M3UA.encodes_iff.mp h
  have h3 : bs.length = m.setLength.marshalLen := by rw [h2, M3UA.marshalLen_eq, List.length_append, Header.head_length]
  rw [h3] at hl ⊢
  rw [h2, Header.head, h1, M3UA.u32bytes_ofNat]
  generalize m.setLength.marshalLen = n at hl
  simp only [be32, field32, List.cons_append, List.nil_append, List.getD_cons_succ, List.getD_cons_zero, UInt8.toNat_ofNat']
  omega

/-- For `c104_setLength`: an ASP Down with two INFO Strings, as in `c104_wrong`. -/
example : ∃ m, M3UA.parse [1, 0, 3, 2, 0, 0, 0, 24, 0, 4, 0, 5, 0x61, 0, 0, 0, 0, 4, 0, 5, 0x62, 0, 0, 0] = .ok m ∧
    m.setLength.Encodes [1, 0, 3, 2, 0, 0, 0, 16, 0, 4, 0, 5, 0x62, 0, 0, 0] := ⟨_, rfl, M3UA.encodes_iff.mpr rfl⟩

end M3
