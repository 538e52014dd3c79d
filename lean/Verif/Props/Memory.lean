import Verif.Lemmas.Memory

/- C91: a parsed message is a window on the buffer it was parsed from. -/

set_option autoImplicit false
set_option linter.unusedSimpArgs false

namespace M3

open Spec

/-- What `Parse` on a buffer produces, seen at once, is what parsing by value produces: the model of the other theorems leaves out only
what happens when the buffer is written to afterwards. -/
theorem c91_parse (b : Bytes) (m : M3UA) : M3UA.parse b = .ok m ↔ ∃ w, M3UA.parseRef b = .ok w ∧ w.read b = .ok m := by
  rw [M3UA.parse_eq_ref]
  cases M3UA.parseRef b <;> simp

/-- The parts of a parsed message. -/
theorem parseRef_parts {b : Bytes} {w : MsgRef} (h : M3UA.parseRef b = .ok w) :
    8 ≤ b.length ∧ w.selected = M3UA.empty (M3UA.selected (b.getD 2 0) (b.getD 3 0)) ∧ w.header.payload = ⟨8, b.length - 8⟩ ∧
      parseMultiRef b (b.length - 8) ⟨8, b.length - 8⟩ = .ok w.params ∧ ∃ m, w.read b = .ok m := by
  simp only [M3UA.parseRef] at h
  split at h
  · cases h
  · cases h2 : rindex b 2 <;> rw [h2] at h <;> try cases h
    simp only [Res.bind_ok] at h
    cases h3 : rindex b 3 <;> rw [h3] at h <;> try cases h
    simp only [Res.bind_ok] at h
    rename_i c t
    cases h4 : HeaderRef.unmarshalBinary b ⟨0, b.length⟩ <;> rw [h4] at h <;> try cases h
    rename_i hd
    simp only [Res.bind_ok] at h
    obtain ⟨h8, hp⟩ := HeaderRef.parse_payload h4
    simp only [Nat.zero_add] at h8 hp
    rw [hp] at h
    cases h5 : parseMultiRef b (b.length - 8) ⟨8, b.length - 8⟩ <;> simp only [h5] at h <;> try cases h
    rename_i ps
    simp only [Res.bind_ok] at h
    generalize hm : MsgRef.read b ⟨M3UA.select (M3UA.combine c t), hd, ps⟩ = r at h
    cases r <;> cases h
    rename_i m
    refine ⟨h8, ?_, hp, rfl, m, hm⟩
    have e2 : b.getD 2 0 = c := by
      simp only [rindex] at h2
      rw [List.getD_eq_getElem?_getD]
      cases hb : b[2]? <;> rw [hb] at h2 <;> cases h2; rfl
    have e3 : b.getD 3 0 = t := by
      simp only [rindex] at h3
      rw [List.getD_eq_getElem?_getD]
      cases hb : b[3]? <;> rw [hb] at h3 <;> cases h3; rfl
    rw [e2, e3]; exact M3UA.select_eq c t

theorem window_rest {mem : Bytes} {n : Nat} (h : mem.length = n) : Window.read mem ⟨8, n - 8⟩ = mem.drop 8 := by
  simp only [Window.read]
  rw [List.take_of_length_le]; simp [h]

/-- The parameters of a parsed message are those of the sequence after the header, each at its place. -/
theorem parseRef_places {b : Bytes} {w : MsgRef} (h : M3UA.parseRef b = .ok w) {qs : List (Nat × Bytes)} (hq : ParamSeq (b.drop 8) qs) :
    w.params.map (fun p => (p.tag.toNat, p.data.read b)) = qs ∧ w.params.map (fun p => (p.data.start, p.data.len)) = places 8 qs ∧
      ∀ p ∈ w.params, 12 ≤ p.data.start ∧ p.data.In b.length ∧ p.length.toNat = 4 + p.data.len := by
  obtain ⟨h8, _, _, hp, _⟩ := parseRef_parts h
  have hin : Window.In ⟨8, b.length - 8⟩ b.length := by simp only [Window.In]; omega
  have hl := parseMultiRef_loop b (b.length - 8) _ hin
  rw [hp, window_rest rfl] at hl
  have hpm : parseMultiParams (b.drop 8) = .ok (w.params.map (ParamRef.read b)) := by
    rw [parseMultiParams, List.length_drop, hl]; rfl
  have hqs := c05_unique _ _ _ (paramSeq_of_parse hpm) hq
  obtain ⟨p1, p2⟩ := parseMultiRef_places b _ _ _ hin hp
  rw [hqs] at p1
  refine ⟨by rw [← hqs, List.map_map]; rfl, p1, ?_⟩
  intro p hpp
  obtain ⟨q1, q2, q3⟩ := p2 p hpp
  simp only at q1 q2
  refine ⟨?_, by simp only [Window.In]; omega, q3⟩
  -- every value is behind a tag and a length
  have : ∀ (o : Nat) (xs : List (Nat × Bytes)), ∀ x ∈ places o xs, o + 4 ≤ x.1 := by
    intro o xs
    induction xs generalizing o with
    | nil => intro x hx; cases hx
    | cons y ys ih =>
      intro x hx
      simp only [places, List.mem_cons] at hx
      rcases hx with rfl | hx
      · exact Nat.le_refl _
      · have := ih _ x hx; omega
  exact this 8 qs (p.data.start, p.data.len) (by rw [← p1]; exact List.mem_map.mpr ⟨p, hpp, rfl⟩)

theorem read_part (mem : Bytes) (p : ParamRef) : p.read mem = { (p.read mem) with data := part mem (p.data.start, p.data.len) } := rfl

theorem lastWith_read (t : UInt16) (ps : List ParamRef) (mem : Bytes) :
    lastWith t (ps.map (ParamRef.read mem)) = ((ps.filter fun p => p.tag = t).getLast?).map (ParamRef.read mem) := by
  simp only [lastWith, List.filter_map, List.getLast?_map, Function.comp_def, ParamRef.read]; rfl

theorem lastPlace_ref (n : PName) (ps : List ParamRef) (mem : Bytes) (qs : List (Nat × Bytes))
    (h1 : ps.map (fun p => (p.tag.toNat, p.data.read mem)) = qs) (h2 : ps.map (fun p => (p.data.start, p.data.len)) = places 8 qs) :
    lastPlace n qs = ((ps.filter fun p => p.tag = UInt16.ofNat n.tag).getLast?).map fun p => (p.data.start, p.data.len) := by
  have : (fun p : ParamRef => decide (p.tag = UInt16.ofNat n.tag)) = fun p => decide (p.tag.toNat = n.tag) := by
    funext p; congr 1; exact propext (tag_ofNat n p.tag).symm
  rw [lastPlace, ← h2, ← h1, List.zip_map', this]
  simp only [List.filter_map, List.getLast?_map, Option.map_map, Function.comp_def]

/-- After the buffer has been overwritten (by whatever, but it stays as long as it is): the message still has its kind, its version, class,
type and length; its payload is what is now in the buffer; and each of its parameters still has its tag and its length, while its value is
what now lies where the last parameter with that tag was found. -/
theorem c91_window (b mem : Bytes) (hl : mem.length = b.length) (w : MsgRef) (h : M3UA.parseRef b = .ok w) (qs : List (Nat × Bytes))
    (hq : ParamSeq (b.drop 8) qs) :
    ∃ m m', w.read b = .ok m ∧ w.read mem = .ok m' ∧ m'.kind = m.kind ∧ m'.header = { m.header with payload := mem.drop 8 } ∧
      (∀ n p, m.field n = some p → ∃ x, lastPlace n qs = some x ∧ x.1 + x.2 ≤ b.length ∧ p.data = part b x ∧
        m'.field n = some { p with data := part mem x }) ∧
      (∀ n, m.field n = none → m'.field n = none) ∧
      (∀ g, m = .generic g → ∃ g', m' = .generic g' ∧ g.params.length = qs.length ∧
        g'.params = List.zipWith (fun p x => { p with data := part mem x }) g.params (places 8 qs)) := by
  obtain ⟨h8, hsel, hpay, _, m, hm⟩ := parseRef_parts h
  obtain ⟨hqs, hpl, hin⟩ := parseRef_places h hq
  have hhd : ∀ mm : Bytes, mm.length = b.length → w.header.read mm = { w.header.read b with payload := mm.drop 8 } := by
    intro mm hmm
    simp only [HeaderRef.read, hpay, window_rest hmm]
  cases hs : M3UA.selected (b.getD 2 0) (b.getD 3 0) with
  | some k =>
    have hk : w.selected.kind = some k := by rw [hsel, hs]; exact M3UA.empty_kind _
    have hnone : ∀ n, w.selected.field n = none := by intro n; rw [hsel, hs]; cases k <;> cases n <;> rfl
    have hm0 := hm
    simp only [MsgRef.read] at hm
    rcases M3UA.assign_typed w.selected k hk (w.header.read b) (w.params.map (ParamRef.read b)) with ⟨ht, m1, e1, k1, h1, _, f1⟩ | ⟨_, e, he⟩
    · rw [e1] at hm; cases hm
      have ht' : ∀ p ∈ w.params.map (ParamRef.read mem), p.tag ∈ M3UA.knownTags k := by
        intro p hp
        obtain ⟨q, hq', rfl⟩ := List.mem_map.mp hp
        exact ht (q.read b) (List.mem_map.mpr ⟨q, hq', rfl⟩)
      rcases M3UA.assign_typed w.selected k hk (w.header.read mem) (w.params.map (ParamRef.read mem)) with
        ⟨_, m2, e2, k2, h2, _, f2⟩ | ⟨hn, _⟩
      · refine ⟨m, m2, hm0, e2, by rw [k2, k1], by rw [h2, h1, hhd mem hl], ?_, ?_, ?_⟩
        · intro n p hp
          rw [f1 n] at hp
          by_cases hn : n ∈ k.params
          · rw [if_pos hn, hnone, Option.or_none, lastWith_read] at hp
            cases hr : (w.params.filter fun p => p.tag = UInt16.ofNat n.tag).getLast? with
            | none => rw [hr] at hp; cases hp
            | some r =>
              rw [hr] at hp; cases hp
              have hmem : r ∈ w.params := (List.mem_filter.mp (List.mem_of_getLast? hr)).1
              refine ⟨(r.data.start, r.data.len), by rw [lastPlace_ref n w.params b qs hqs hpl, hr]; rfl, (hin r hmem).2.1, rfl, ?_⟩
              rw [f2 n, if_pos hn, hnone, Option.or_none, lastWith_read, hr]; rfl
          · rw [if_neg hn] at hp; cases hp
        · intro n hp
          rw [f1 n] at hp
          rw [f2 n]
          by_cases hn : n ∈ k.params
          · rw [if_pos hn, hnone, Option.or_none, lastWith_read] at hp ⊢
            rw [Option.map_eq_none_iff] at hp
            rw [hp]; rfl
          · rw [if_neg hn]
        · intro g hg; rw [hg] at k1; cases k1
      · exact absurd ht' hn
    · rw [he] at hm; cases hm
  | none =>
    have hz : w.selected = .generic Msg.Generic.zero := by rw [hsel, hs]; rfl
    have hr : ∀ mm, w.read mm = .ok (.generic ⟨w.header.read mm, w.params.map (ParamRef.read mm)⟩) := by
      intro mm; simp only [MsgRef.read, hz, M3UA.assign, Msg.Generic.zero, List.nil_append]
    rw [hr b] at hm; cases hm
    refine ⟨_, _, hr b, hr mem, rfl, hhd mem hl, ?_, ?_, ?_⟩
    · intro n p hp; cases hp
    · intro n _; rfl
    · intro g hg
      cases hg
      refine ⟨_, rfl, by rw [← hqs]; simp, ?_⟩
      simp only [← hpl, List.zipWith_map, List.zipWith_self]
      rfl

/-- The message looks as it did when it was parsed exactly as long as the part of the buffer after the header has not changed. -/
theorem c91_unchanged (b mem : Bytes) (hl : mem.length = b.length) (w : MsgRef) (h : M3UA.parseRef b = .ok w) :
    w.read mem = w.read b ↔ mem.drop 8 = b.drop 8 := by
  obtain ⟨h8, _, hpay, hp, m, hm⟩ := parseRef_parts h
  have hin : Window.In ⟨8, b.length - 8⟩ b.length := by simp only [Window.In]; omega
  have hlp := parseMultiRef_loop b (b.length - 8) _ hin
  rw [hp, window_rest rfl] at hlp
  have hpm : parseMultiParams (b.drop 8) = .ok (w.params.map (ParamRef.read b)) := by
    rw [parseMultiParams, List.length_drop, hlp]; rfl
  have hq := paramSeq_of_parse hpm
  constructor
  · intro he
    obtain ⟨m1, m2, e1, e2, _, hh, _⟩ := c91_window b mem hl w h _ hq
    rw [e1, e2] at he; cases he
    obtain ⟨m3, m4, e3, e4, _, hh', _⟩ := c91_window b b rfl w h _ hq
    rw [e1] at e3 e4; cases e3; cases e4
    have := hh.symm.trans hh'
    exact congrArg Header.payload this
  · intro he
    obtain ⟨_, _, hb⟩ := parseRef_places h hq
    have hd : ∀ s : Window, 8 ≤ s.start → s.read mem = s.read b := by
      intro s hs
      have e : ∀ mm : Bytes, mm.drop s.start = (mm.drop 8).drop (s.start - 8) := by
        intro mm; rw [List.drop_drop]; congr 1; omega
      simp only [Window.read, e, he]
    simp only [MsgRef.read, HeaderRef.read, hd w.header.payload (by rw [hpay]; exact Nat.le_refl _)]
    congr 1
    apply List.map_congr_left
    intro p hpp
    simp only [ParamRef.read, hd p.data (by have := (hb p hpp).1; omega)]

/-- `ProtocolData()`, `UnmarshalBinary` and `ParseProtocolDataPayload` on a value that lies in a buffer: the point codes and the other numbers are copied;
the user data are those that are in the buffer, 12 bytes behind the start of the value. -/
theorem c91_payload (b mem : Bytes) (s : Window) (hs : s.start + s.len ≤ b.length) (p : PayloadRef)
    (h : PayloadRef.unmarshalBinary b s = .ok p) :
    ProtocolDataPayload.parse (s.read b) = .ok (p.read b) ∧ p.data = ⟨s.start + 12, s.len - 12⟩ ∧
      p.read mem = { p.read b with data := part mem (s.start + 12, s.len - 12) } := by
  have hin : s.In b.length := hs
  have hagree : ProtocolDataPayload.parse (s.read b) = (PayloadRef.unmarshalBinary b s >>= fun p => .ok (p.read b)) := by
    have hrf : rfrom (s.read b) 12 = rsub (s.read b) 12 s.len := by
      rw [rfrom, rsub, Window.read_length hin]
      by_cases h12 : 12 ≤ s.len
      · rw [if_pos h12, if_pos ⟨h12, Nat.le_refl _⟩, List.take_of_length_le]
        simp [Window.read_length hin]
      · rw [if_neg h12, if_neg (fun h => h12 h.1)]
    simp only [ProtocolDataPayload.parse, PayloadRef.unmarshalBinary, hrf, Window.read_length hin, Window.sub_read hin]
    split
    · rfl
    · cases s.sub 0 4 <;> simp only [Res.bind_ok, Res.bind_err, Res.bind_panic, Res.bind_diverge]
      rename_i t
      cases getUint32 (t.read b) <;> simp only [Res.bind_ok, Res.bind_err, Res.bind_panic, Res.bind_diverge]
      cases s.sub 4 8 <;> simp only [Res.bind_ok, Res.bind_err, Res.bind_panic, Res.bind_diverge]
      rename_i t
      cases getUint32 (t.read b) <;> simp only [Res.bind_ok, Res.bind_err, Res.bind_panic, Res.bind_diverge]
      cases rindex (s.read b) 8 <;> simp only [Res.bind_ok, Res.bind_err, Res.bind_panic, Res.bind_diverge]
      cases rindex (s.read b) 9 <;> simp only [Res.bind_ok, Res.bind_err, Res.bind_panic, Res.bind_diverge]
      cases rindex (s.read b) 10 <;> simp only [Res.bind_ok, Res.bind_err, Res.bind_panic, Res.bind_diverge]
      cases rindex (s.read b) 11 <;> simp only [Res.bind_ok, Res.bind_err, Res.bind_panic, Res.bind_diverge]
      cases s.sub 12 s.len <;> rfl
  have hd : p.data = ⟨s.start + 12, s.len - 12⟩ := by
    simp only [PayloadRef.unmarshalBinary] at h
    split at h
    · cases h
    · cases h1 : s.sub 0 4 <;> rw [h1] at h <;> try cases h
      rename_i t
      simp only [Res.bind_ok] at h
      cases h1 : getUint32 (t.read b) <;> rw [h1] at h <;> try cases h
      simp only [Res.bind_ok] at h
      cases h1 : s.sub 4 8 <;> rw [h1] at h <;> try cases h
      rename_i t
      simp only [Res.bind_ok] at h
      cases h1 : getUint32 (t.read b) <;> rw [h1] at h <;> try cases h
      simp only [Res.bind_ok] at h
      cases h1 : rindex (s.read b) 8 <;> rw [h1] at h <;> try cases h
      simp only [Res.bind_ok] at h
      cases h1 : rindex (s.read b) 9 <;> rw [h1] at h <;> try cases h
      simp only [Res.bind_ok] at h
      cases h1 : rindex (s.read b) 10 <;> rw [h1] at h <;> try cases h
      simp only [Res.bind_ok] at h
      cases h1 : rindex (s.read b) 11 <;> rw [h1] at h <;> try cases h
      simp only [Res.bind_ok] at h
      cases h1 : s.sub 12 s.len <;> rw [h1] at h <;> cases h
      exact (Window.sub_ok h1).2.2
  refine ⟨by rw [hagree, h]; rfl, hd, ?_⟩
  simp only [PayloadRef.read, hd]; rfl

/-- Parameters inside the value of a parameter (`ParseRoutingKeyPayload` and the like parse them with `ParseMultiParams`): they keep tag and length, and
their values are what now lies where they were found in the buffer. -/
theorem c91_nested (b mem : Bytes) (s : Window) (hs : s.start + s.len ≤ b.length) (ps : List Param) (h : parseMultiParams (s.read b) = .ok ps)
    (qs : List (Nat × Bytes)) (hq : ParamSeq (s.read b) qs) :
    ∃ rs, parseMultiRef b s.len s = .ok rs ∧ rs.map (ParamRef.read b) = ps ∧ ps.length = qs.length ∧
      rs.map (ParamRef.read mem) = List.zipWith (fun p x => { p with data := part mem x }) ps (places s.start qs) := by
  have hin : s.In b.length := hs
  have hl := parseMultiRef_loop b s.len s hin
  have hqs := c05_unique _ _ _ (paramSeq_of_parse h) hq
  rw [parseMultiParams, Window.read_length hin, hl] at h
  cases hr : parseMultiRef b s.len s with
  | ok rs =>
    rw [hr] at h
    cases h
    obtain ⟨p1, -⟩ := parseMultiRef_places b _ _ _ hin hr
    rw [hqs] at p1
    refine ⟨rs, rfl, rfl, by rw [← hqs]; simp, ?_⟩
    rw [← p1]
    simp only [List.zipWith_map, List.zipWith_self]
    rfl
  | _ => rw [hr] at h; cases h

/-- The connection parses copies: after any datagrams the copy made of each is still that datagram (its first 1500 bytes), so nothing that
was parsed from it is changed by what is received later; and the buffer that is read into begins with the latest. -/
theorem c91_monitor (ds : List Bytes) :
    (ds.foldl Buffers.receive Buffers.start).raws = ds.map (·.take 1500) ∧
      (ds.foldl Buffers.receive Buffers.start).buf.length = 1500 ∧
      ∀ d, ds.getLast? = some d → (d.take 1500) <+: (ds.foldl Buffers.receive Buffers.start).buf := by
  have key : ∀ (ds : List Bytes) (s : Buffers), s.buf.length = 1500 →
      (ds.foldl Buffers.receive s).raws = s.raws ++ ds.map (·.take 1500) ∧ (ds.foldl Buffers.receive s).buf.length = 1500 ∧
        ∀ d, ds.getLast? = some d → (d.take 1500) <+: (ds.foldl Buffers.receive s).buf := by
    intro ds
    induction ds with
    | nil => intro s hs; exact ⟨by simp, hs, by simp⟩
    | cons d ds ih =>
      intro s hs
      have hb : (s.receive d).buf = d.take (min d.length 1500) ++ s.buf.drop (min d.length 1500) := by simp only [Buffers.receive, hs]
      have htake : d.take (min d.length 1500) = d.take 1500 := by
        by_cases h : d.length ≤ 1500
        · rw [Nat.min_eq_left h, List.take_length, List.take_of_length_le h]
        · rw [Nat.min_eq_right (by omega)]
      have hlen : (d.take 1500).length = min d.length 1500 := by rw [List.length_take, Nat.min_comm]
      have hl : (s.receive d).buf.length = 1500 := by
        rw [hb, htake, List.length_append, hlen, List.length_drop, hs]; omega
      have hraw : (s.receive d).raws = s.raws ++ [d.take 1500] := by
        simp only [Buffers.receive, hs]
        congr 2
        rw [Slice.copy]
        simp only [Slice.make]
        rw [htake, List.take_append_of_le_length (Nat.le_of_eq hlen.symm), List.take_of_length_le (Nat.le_of_eq hlen), ← hlen,
          Param.writeAt_replicate_zero, Nat.sub_self, List.replicate_zero, List.append_nil]
      obtain ⟨i1, i2, i3⟩ := ih _ hl
      refine ⟨by rw [List.foldl_cons, i1, hraw]; simp, i2, ?_⟩
      intro e he
      cases ds with
      | nil =>
        simp only [List.getLast?_singleton, Option.some.injEq] at he
        subst he
        rw [List.foldl_cons, List.foldl_nil, hb, htake]
        exact List.prefix_append ..
      | cons f fs =>
        rw [List.getLast?_cons_cons] at he
        exact i3 e he
  exact key ds Buffers.start List.length_replicate

/-! ## Instances -/

namespace Memory

/-- A Heartbeat with four bytes of data, and what follows in the same buffer when it is used again. -/
def beatBytes : Bytes := [1, 0, 3, 3, 0, 0, 0, 16, 0, 9, 0, 8, 1, 2, 3, 4]

def nextBytes : Bytes := [1, 0, 4, 1, 0, 0, 0, 16, 0, 6, 0, 8, 0, 0, 0, 7]

end Memory

open Memory in
/-- The bytes of a Heartbeat. -/
example : ParamSeq (beatBytes.drop 8) [(9, [1, 2, 3, 4])] ∧ lastPlace .heartbeatData [(9, [1, 2, 3, 4])] = some (12, 4) :=
  ⟨ParamSeq.cons 9 [1, 2, 3, 4] [] [] [] (by decide) (by decide) (by decide) .nil, by decide +kernel⟩

open Memory in
/-- For `c91_window` and `c91_unchanged`: the data of the Heartbeat have become those of the other message, its tag and length have not. -/
example : ∃ w, M3UA.parseRef beatBytes = .ok w ∧
    (∃ m, w.read beatBytes = .ok m ∧ m.field .heartbeatData = some ⟨9, 8, [1, 2, 3, 4]⟩) ∧
    (∃ m, w.read nextBytes = .ok m ∧ m.field .heartbeatData = some ⟨9, 8, [0, 0, 0, 7]⟩) :=
  ⟨_, rfl, ⟨_, rfl, rfl⟩, ⟨_, rfl, rfl⟩⟩

/-- For `c91_payload`: A payload at position 2 of a buffer. -/
example : ∃ p, PayloadRef.unmarshalBinary [7, 7, 0, 0, 0, 1, 0, 0, 0, 2, 3, 4, 5, 6, 9, 9] ⟨2, 14⟩ = .ok p ∧
    p.read [7, 7, 0, 0, 0, 1, 0, 0, 0, 2, 3, 4, 5, 6, 9, 9] = ⟨1, 2, 3, 4, 5, 6, [9, 9]⟩ ∧
    p.read [0, 0, 0, 0, 0, 0, 0, 0, 0, 0, 0, 0, 0, 0, 1, 2] = ⟨1, 2, 3, 4, 5, 6, [1, 2]⟩ := ⟨_, rfl, by decide +kernel, by decide +kernel⟩

/-- For `c91_nested`: a Local-RK-Identifier inside a Routing Key that begins at position 4 of a buffer. -/
example : parseMultiParams (Window.read [2, 7, 0, 12, 2, 10, 0, 8, 0, 0, 0, 5] ⟨4, 8⟩) = .ok [⟨522, 8, [0, 0, 0, 5]⟩] ∧
    ParamSeq (Window.read [2, 7, 0, 12, 2, 10, 0, 8, 0, 0, 0, 5] ⟨4, 8⟩) [(522, [0, 0, 0, 5])] ∧ places 4 [(522, [0, 0, 0, 5])] = [(8, 4)] :=
  ⟨by decide +kernel, ParamSeq.cons 522 [0, 0, 0, 5] [] [] [] (by decide) (by decide) (by decide) .nil, rfl⟩

example : (([[1, 2, 3], [4]] : List Bytes).foldl Buffers.receive Buffers.start).raws = [[1, 2, 3], [4]] := by
  rw [(c91_monitor _).1]; rfl

end M3
