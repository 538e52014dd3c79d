import Verif.Model.Memory
import Verif.Spec.Memory
import Verif.Lemmas.Messages
import Verif.Props.Messages

/- Parsing with shared memory agrees with parsing by value. -/

set_option autoImplicit false
set_option linter.unusedSimpArgs false

namespace M3

namespace Window

/-- The slice lies inside the buffer. -/
def In (s : Window) (n : Nat) : Prop := s.start + s.len ≤ n

theorem read_length {s : Window} {mem : Bytes} (h : s.In mem.length) : (s.read mem).length = s.len := by
  simp only [In] at h
  simp only [read, List.length_take, List.length_drop]; omega

theorem sub_ok {s t : Window} {i j : Nat} (h : s.sub i j = .ok t) : i ≤ j ∧ j ≤ s.len ∧ t = ⟨s.start + i, j - i⟩ := by
  simp only [sub] at h
  split at h
  · rename_i hc; exact ⟨hc.1, hc.2, (Res.ok.inj h).symm⟩
  · cases h

theorem sub_in {s t : Window} {i j n : Nat} (hs : s.In n) (h : s.sub i j = .ok t) : t.In n := by
  obtain ⟨h1, h2, rfl⟩ := sub_ok h
  simp only [In] at hs ⊢; omega

theorem sub_read {s : Window} {mem : Bytes} (hs : s.In mem.length) (i j : Nat) :
    rsub (s.read mem) i j = (s.sub i j >>= fun t => .ok (t.read mem)) := by
  simp only [rsub, sub, read_length hs]
  split
  · rename_i h
    simp only [Res.bind_ok, read]
    congr 1
    rw [List.drop_take, List.drop_drop, List.take_take, Nat.min_eq_left (by omega)]
  · rfl

end Window

theorem ParamRef.read_padding {mem : Bytes} {p : ParamRef} (h : p.data.In mem.length) : (p.read mem).padding = p.padding := by
  simp only [Param.padding, ParamRef.padding, ParamRef.read, Window.read_length h]

theorem ParamRef.parse {mem : Bytes} {b : Window} (hb : b.In mem.length) :
    Param.parse (b.read mem) = (ParamRef.unmarshalBinary mem b >>= fun p => .ok (p.read mem)) := by
  simp only [Param.parse, Param.unmarshalBinary, ParamRef.unmarshalBinary, Window.read_length hb, Window.sub_read hb]
  split
  · rfl
  · cases h1 : b.sub 0 2 <;> simp only [Res.bind_ok, Res.bind_err, Res.bind_panic, Res.bind_diverge]
    rename_i t
    cases h2 : getUint16 (t.read mem) <;> simp only [Res.bind_ok, Res.bind_err, Res.bind_panic, Res.bind_diverge]
    cases h3 : b.sub 2 4 <;> simp only [Res.bind_ok, Res.bind_err, Res.bind_panic, Res.bind_diverge]
    rename_i u
    cases h4 : getUint16 (u.read mem) <;> simp only [Res.bind_ok, Res.bind_err, Res.bind_panic, Res.bind_diverge]
    split
    · rfl
    · cases h5 : b.sub 4 _ <;> simp only [Res.bind_ok, Res.bind_err, Res.bind_panic, Res.bind_diverge]
      rfl

theorem ParamRef.parse_in {mem : Bytes} {b : Window} {p : ParamRef} (h : ParamRef.unmarshalBinary mem b = .ok p) :
    p.data.start = b.start + 4 ∧ p.length.toNat = 4 + p.data.len ∧ 4 + p.data.len ≤ b.len := by
  simp only [ParamRef.unmarshalBinary] at h
  split at h
  · cases h
  · cases h1 : b.sub 0 2 <;> rw [h1] at h <;> try cases h
    rename_i t
    simp only [Res.bind_ok] at h
    cases h2 : getUint16 (t.read mem) <;> rw [h2] at h <;> try cases h
    simp only [Res.bind_ok] at h
    cases h3 : b.sub 2 4 <;> rw [h3] at h <;> try cases h
    rename_i u
    simp only [Res.bind_ok] at h
    cases h4 : getUint16 (u.read mem) <;> rw [h4] at h <;> try cases h
    rename_i l
    simp only [Res.bind_ok] at h
    split at h
    · cases h
    · cases h5 : b.sub 4 l.toNat <;> rw [h5] at h <;> cases h
      obtain ⟨h6, h7, rfl⟩ := Window.sub_ok h5
      exact ⟨rfl, by simp only; omega, by simp only; omega⟩

theorem parseMultiRef_zero (mem : Bytes) (fuel : Nat) {b : Window} (h : b.len = 0) : parseMultiRef mem fuel b = .ok [] := by
  cases fuel <;> rw [parseMultiRef, if_pos h]

theorem parseMultiRef_succ (mem : Bytes) (fuel : Nat) {b : Window} (h : b.len ≠ 0) : parseMultiRef mem (fuel + 1) b =
    (ParamRef.unmarshalBinary mem b >>= fun p =>
      if b.len < p.length.toNat + p.padding then .ok [p] else
      b.sub (p.length.toNat + p.padding) b.len >>= fun b' => parseMultiRef mem fuel b' >>= fun ps => .ok (p :: ps)) := by
  rw [parseMultiRef, if_neg h]; rfl

theorem parseMultiRef_loop (mem : Bytes) : ∀ (fuel : Nat) (b : Window), b.In mem.length →
    parseMultiLoop fuel (b.read mem) = (parseMultiRef mem fuel b >>= fun ps => .ok (ps.map (ParamRef.read mem))) := by
  intro fuel
  induction fuel with
  | zero =>
    intro b hb
    by_cases h : b.len = 0
    · rw [parseMultiRef_zero _ _ h, parseMultiLoop, if_pos (by rw [Window.read_length hb, h])]; rfl
    · rw [parseMultiLoop, if_neg (by rw [Window.read_length hb]; exact h), parseMultiRef, if_neg h]; rfl
  | succ fuel ih =>
    intro b hb
    by_cases h : b.len = 0
    · rw [parseMultiRef_zero _ _ h, parseMultiLoop, if_pos (by rw [Window.read_length hb, h])]; rfl
    · have hne : b.read mem ≠ [] := by
        intro e; apply h; rw [← Window.read_length hb, e]; rfl
      rw [parseMultiLoop_succ _ _ hne, parseMultiRef_succ _ _ h, ParamRef.parse hb]
      cases hp : ParamRef.unmarshalBinary mem b with
      | ok p =>
        obtain ⟨h1, h2, h3⟩ := ParamRef.parse_in hp
        have hpi : p.data.In mem.length := by simp only [Window.In] at hb ⊢; omega
        simp only [Res.bind_ok, ParamRef.read_padding hpi, Window.read_length hb]
        have hl : (p.read mem).length = p.length := rfl
        rw [hl]
        by_cases hc : b.len < p.length.toNat + p.padding
        · rw [if_pos hc, if_pos hc]; rfl
        · rw [if_neg hc, if_neg hc]
          have hs : b.sub (p.length.toNat + p.padding) b.len
              = .ok ⟨b.start + (p.length.toNat + p.padding), b.len - (p.length.toNat + p.padding)⟩ := by
            rw [Window.sub, if_pos ⟨by omega, Nat.le_refl _⟩]
          have hin := Window.sub_in hb hs
          have hd : (b.read mem).drop (p.length.toNat + p.padding)
              = Window.read mem ⟨b.start + (p.length.toNat + p.padding), b.len - (p.length.toNat + p.padding)⟩ := by
            simp only [Window.read, List.drop_take, List.drop_drop]
          rw [hd, ih _ hin, hs]
          simp only [Res.bind_ok]
          cases parseMultiRef mem fuel ⟨b.start + (p.length.toNat + p.padding), b.len - (p.length.toNat + p.padding)⟩ <;> rfl
      | err e => rfl
      | panic => rfl
      | diverge => rfl

theorem ParamRef.padding_pad (p : ParamRef) : p.padding = Spec.pad p.data.len := by
  simp only [ParamRef.padding, Spec.pad]; split <;> omega

/-- Where the values of the parameters lie. -/
theorem parseMultiRef_places (mem : Bytes) : ∀ (fuel : Nat) (b : Window) (ps : List ParamRef), b.In mem.length →
    parseMultiRef mem fuel b = .ok ps →
    ps.map (fun p => (p.data.start, p.data.len))
        = Spec.places b.start ((ps.map (ParamRef.read mem)).map fun p => (p.tag.toNat, p.data)) ∧
      ∀ p ∈ ps, b.start ≤ p.data.start ∧ p.data.start + p.data.len ≤ b.start + b.len ∧ p.length.toNat = 4 + p.data.len := by
  intro fuel
  induction fuel with
  | zero =>
    intro b ps hb h
    by_cases h0 : b.len = 0
    · rw [parseMultiRef_zero _ _ h0] at h; cases h; exact ⟨rfl, by simp⟩
    · rw [parseMultiRef, if_neg h0] at h; cases h
  | succ fuel ih =>
    intro b ps hb h
    by_cases h0 : b.len = 0
    · rw [parseMultiRef_zero _ _ h0] at h; cases h; exact ⟨rfl, by simp⟩
    · rw [parseMultiRef_succ _ _ h0] at h
      cases hp : ParamRef.unmarshalBinary mem b with
      | ok p =>
        obtain ⟨h1, h2, h3⟩ := ParamRef.parse_in hp
        have hpi : p.data.In mem.length := by simp only [Window.In] at hb ⊢; omega
        rw [hp] at h
        simp only [Res.bind_ok] at h
        by_cases hc : b.len < p.length.toNat + p.padding
        · rw [if_pos hc] at h; cases h
          simp only [List.map_cons, List.map_nil, Spec.places, ParamRef.read, Window.read_length hpi, List.mem_singleton, forall_eq]
          exact ⟨by rw [h1], by omega, by omega, h2⟩
        · rw [if_neg hc] at h
          have hs : b.sub (p.length.toNat + p.padding) b.len
              = .ok ⟨b.start + (p.length.toNat + p.padding), b.len - (p.length.toNat + p.padding)⟩ := by
            rw [Window.sub, if_pos ⟨by omega, Nat.le_refl _⟩]
          have hin := Window.sub_in hb hs
          rw [hs] at h
          simp only [Res.bind_ok] at h
          cases hr : parseMultiRef mem fuel ⟨b.start + (p.length.toNat + p.padding), b.len - (p.length.toNat + p.padding)⟩ with
          | ok qs =>
            rw [hr] at h; cases h
            obtain ⟨i1, i2⟩ := ih _ _ hin hr
            refine ⟨?_, ?_⟩
            · simp only [List.map_cons, Spec.places, ParamRef.read, Window.read_length hpi]
              rw [i1, h1]
              congr 2
              simp only
              rw [h2, ParamRef.padding_pad]; omega
            · intro q hq
              rcases List.mem_cons.mp hq with rfl | hq
              · exact ⟨by omega, by omega, h2⟩
              · obtain ⟨j1, j2, j3⟩ := i2 q hq
                simp only at j1 j2
                exact ⟨by omega, by omega, j3⟩
          | err e => rw [hr] at h; cases h
          | panic => rw [hr] at h; cases h
          | diverge => rw [hr] at h; cases h
      | err e => rw [hp] at h; cases h
      | panic => rw [hp] at h; cases h
      | diverge => rw [hp] at h; cases h

theorem HeaderRef.parse {mem : Bytes} {b : Window} (hb : b.In mem.length) :
    Header.parse (b.read mem) = (HeaderRef.unmarshalBinary mem b >>= fun h => .ok (h.read mem)) := by
  simp only [Header.parse, HeaderRef.unmarshalBinary, Window.read_length hb, Window.sub_read hb]
  split
  · rfl
  · cases rindex (b.read mem) 0 <;> simp only [Res.bind_ok, Res.bind_err, Res.bind_panic, Res.bind_diverge]
    cases rindex (b.read mem) 1 <;> simp only [Res.bind_ok, Res.bind_err, Res.bind_panic, Res.bind_diverge]
    cases rindex (b.read mem) 2 <;> simp only [Res.bind_ok, Res.bind_err, Res.bind_panic, Res.bind_diverge]
    cases rindex (b.read mem) 3 <;> simp only [Res.bind_ok, Res.bind_err, Res.bind_panic, Res.bind_diverge]
    cases b.sub 4 8 <;> simp only [Res.bind_ok, Res.bind_err, Res.bind_panic, Res.bind_diverge]
    rename_i t
    cases getUint32 (t.read mem) <;> simp only [Res.bind_ok, Res.bind_err, Res.bind_panic, Res.bind_diverge]
    cases b.sub 8 b.len <;> rfl

theorem HeaderRef.parse_payload {mem : Bytes} {b : Window} {h : HeaderRef} (hh : HeaderRef.unmarshalBinary mem b = .ok h) :
    8 ≤ b.len ∧ h.payload = ⟨b.start + 8, b.len - 8⟩ := by
  simp only [HeaderRef.unmarshalBinary] at hh
  split at hh
  · cases hh
  · refine ⟨by omega, ?_⟩
    cases h1 : rindex (b.read mem) 0 <;> rw [h1] at hh <;> try cases hh
    simp only [Res.bind_ok] at hh
    cases h1 : rindex (b.read mem) 1 <;> rw [h1] at hh <;> try cases hh
    simp only [Res.bind_ok] at hh
    cases h1 : rindex (b.read mem) 2 <;> rw [h1] at hh <;> try cases hh
    simp only [Res.bind_ok] at hh
    cases h1 : rindex (b.read mem) 3 <;> rw [h1] at hh <;> try cases hh
    simp only [Res.bind_ok] at hh
    cases h1 : b.sub 4 8 <;> rw [h1] at hh <;> try cases hh
    rename_i t
    simp only [Res.bind_ok] at hh
    cases h2 : getUint32 (t.read mem) <;> rw [h2] at hh <;> try cases hh
    simp only [Res.bind_ok] at hh
    cases h3 : b.sub 8 b.len <;> rw [h3] at hh <;> cases hh
    exact (Window.sub_ok h3).2.2

namespace M3UA

theorem exists_assign (k : Spec.Kind) : ∃ (M : Type) (C : Codec M) (inj : M → M3UA), View k M inj ∧ M3UA.empty (some k) = inj C.zero ∧
    ∀ (y : M) (h : Header) (ps : List Param), (inj y).assign h ps = (C.setParams (C.setHdr y h) ps >>= fun x => .ok (inj x)) := by
  cases k
  · exact ⟨_, _, _, view_error, rfl, fun _ _ _ => rfl⟩
  · exact ⟨_, _, _, view_notify, rfl, fun _ _ _ => rfl⟩
  · exact ⟨_, _, _, view_data, rfl, fun _ _ _ => rfl⟩
  · exact ⟨_, _, _, view_duna, rfl, fun _ _ _ => rfl⟩
  · exact ⟨_, _, _, view_dava, rfl, fun _ _ _ => rfl⟩
  · exact ⟨_, _, _, view_daud, rfl, fun _ _ _ => rfl⟩
  · exact ⟨_, _, _, view_scon, rfl, fun _ _ _ => rfl⟩
  · exact ⟨_, _, _, view_dupu, rfl, fun _ _ _ => rfl⟩
  · exact ⟨_, _, _, view_drst, rfl, fun _ _ _ => rfl⟩
  · exact ⟨_, _, _, view_aspUp, rfl, fun _ _ _ => rfl⟩
  · exact ⟨_, _, _, view_aspDown, rfl, fun _ _ _ => rfl⟩
  · exact ⟨_, _, _, view_heartbeat, rfl, fun _ _ _ => rfl⟩
  · exact ⟨_, _, _, view_aspUpAck, rfl, fun _ _ _ => rfl⟩
  · exact ⟨_, _, _, view_aspDownAck, rfl, fun _ _ _ => rfl⟩
  · exact ⟨_, _, _, view_heartbeatAck, rfl, fun _ _ _ => rfl⟩
  · exact ⟨_, _, _, view_aspActive, rfl, fun _ _ _ => rfl⟩
  · exact ⟨_, _, _, view_aspInactive, rfl, fun _ _ _ => rfl⟩
  · exact ⟨_, _, _, view_aspActiveAck, rfl, fun _ _ _ => rfl⟩
  · exact ⟨_, _, _, view_aspInactiveAck, rfl, fun _ _ _ => rfl⟩

theorem unmarshal_assign (m : M3UA) (b : Bytes) :
    m.unmarshalBinary b = (Header.parse b >>= fun h => parseMultiParams h.payload >>= fun ps => m.assign h ps) := by
  cases hk : m.kind with
  | some k =>
    obtain ⟨M, C, inj, v, _, ha⟩ := exists_assign k
    obtain ⟨x, rfl⟩ := v.surj m hk
    rw [v.unmarshalBinary, Codec.unmarshalBinary_eq]
    cases Header.parse b with
    | ok h =>
      simp only [Res.bind_ok, Codec.hdr_setHdr]
      cases parseMultiParams h.payload with
      | ok ps => simp only [Res.bind_ok, ha]
      | err e => rfl
      | panic => rfl
      | diverge => rfl
    | err e => rfl
    | panic => rfl
    | diverge => rfl
  | none =>
    cases m <;> try cases hk
    rename_i g
    simp only [M3UA.unmarshalBinary, Msg.Generic.unmarshalBinary, assign]
    cases Header.parse b with
    | ok h =>
      simp only [Res.bind_ok]
      cases parseMultiParams h.payload <;> rfl
    | err e => rfl
    | panic => rfl
    | diverge => rfl

theorem parse_eq_ref (b : Bytes) : parse b = (parseRef b >>= fun w => w.read b) := by
  have hw : Window.read b ⟨0, b.length⟩ = b := by simp [Window.read]
  have hin : Window.In ⟨0, b.length⟩ b.length := by simp [Window.In]
  have hh := HeaderRef.parse hin
  rw [hw] at hh
  simp only [parse, parseRef]
  split
  · rfl
  · cases rindex b 2 <;> simp only [Res.bind_ok, Res.bind_err, Res.bind_panic, Res.bind_diverge]
    cases rindex b 3 <;> simp only [Res.bind_ok, Res.bind_err, Res.bind_panic, Res.bind_diverge]
    rw [unmarshal_assign, hh]
    cases hu : HeaderRef.unmarshalBinary b ⟨0, b.length⟩ <;> simp only [Res.bind_ok, Res.bind_err, Res.bind_panic, Res.bind_diverge]
    rename_i c t h
    obtain ⟨h8, hp⟩ := HeaderRef.parse_payload hu
    have hpi : h.payload.In b.length := by rw [hp]; simp only [Window.In] at h8 ⊢; omega
    have hl : (h.read b).payload = h.payload.read b := rfl
    rw [hl, parseMultiParams, Window.read_length hpi, parseMultiRef_loop _ _ _ hpi]
    cases parseMultiRef b h.payload.len h.payload <;> simp only [Res.bind_ok, Res.bind_err, Res.bind_panic, Res.bind_diverge]
    rename_i ps
    simp only [MsgRef.read]
    cases hr : (select (combine c t)).assign (h.read b) (ps.map (ParamRef.read b)) <;> simp [hr]

/-- Complete description of what storing does. -/
theorem assign_typed (m : M3UA) (k : Spec.Kind) (hk : m.kind = some k) (h : Header) (ps : List Param) :
    ((∀ p ∈ ps, p.tag ∈ knownTags k) ∧ ∃ m', m.assign h ps = .ok m' ∧ m'.kind = some k ∧ m'.header = h ∧
      m'.unusedField = m.unusedField ∧ ∀ n, m'.field n = if n ∈ k.params then (lastWith (UInt16.ofNat n.tag) ps).or (m.field n) else none) ∨
    ((¬ ∀ p ∈ ps, p.tag ∈ knownTags k) ∧ ∃ e, m.assign h ps = .err e) := by
  obtain ⟨M, C, inj, v, _, ha⟩ := exists_assign k
  obtain ⟨x, rfl⟩ := v.surj m hk
  have hs := Codec.setParams_exact (C.setHdr x h) ps
  have htag : ∀ t, t ∈ Codec.tags M ↔ t ∈ knownTags k := by intro t; rw [v.tags]; rfl
  rw [ha]
  by_cases hall : ∀ p ∈ ps, p.tag ∈ knownTags k
  · rw [if_pos (fun p hp => (htag _).mpr (hall p hp))] at hs
    refine .inl ⟨hall, inj (Codec.store (C.setHdr x h) ps), by rw [hs]; rfl, v.kind _, ?_, ?_, ?_⟩
    · rw [v.header, Codec.hdr_store, Codec.hdr_setHdr]
    · rw [v.unused, v.unused, Codec.aux_store, Codec.aux_setHdr]
    · intro n
      by_cases hn : n ∈ k.params
      · rw [if_pos hn]
        obtain ⟨i, hi, rfl⟩ := List.mem_iff_getElem.mp hn
        have ht : (Codec.tags M)[i]? = some (UInt16.ofNat k.params[i].tag) := by
          rw [v.tags]; simp [hi]
        have := Codec.flds_store (C.setHdr x h) ps i _ ht
        rw [Codec.flds_setHdr, ← v.flds, ← v.flds] at this
        simpa [hi] using this
      · rw [if_neg hn]; exact v.field_other _ _ hn
  · rw [if_neg (fun hh => hall fun p hp => (htag _).mp (hh p hp))] at hs
    exact .inr ⟨hall, _, by rw [hs]; rfl⟩

end M3UA

end M3
