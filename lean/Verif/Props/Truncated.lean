import Verif.Lemmas.Seq
import Verif.Props.Reencode

/- What becomes of a datagram of which only the beginning has arrived: C121. -/

set_option autoImplicit false
set_option linter.unusedSimpArgs false

namespace M3.Spec

/-- The octets that parameters occupy with their padding. -/
def occupied : List (Nat × List UInt8) → Nat
  | [] => 0
  | q :: qs => 4 + q.2.length + pad q.2.length + occupied qs

/-- `n` octets hold the parameters `qs` and nothing more: the last one completely, its padding or a part of it. -/
def Fills (qs : List (Nat × List UInt8)) (n : Nat) : Prop :=
  (qs = [] ∧ n = 0) ∨ ∃ qs' q, qs = qs' ++ [q] ∧ occupied qs' + 4 + q.2.length ≤ n ∧ n ≤ occupied qs

end M3.Spec

namespace M3

open Spec

namespace Truncated

theorem occupied_append (a b : List (Nat × Bytes)) : occupied (a ++ b) = occupied a + occupied b := by
  induction a with
  | nil => simp [occupied]
  | cons q a ih => simp only [List.cons_append, occupied, ih]; omega

theorem fills_single (q : Nat × Bytes) (n : Nat) : Fills [q] n ↔ 4 + q.2.length ≤ n ∧ n ≤ 4 + q.2.length + pad q.2.length := by
  constructor
  · rintro (⟨h, -⟩ | ⟨qs', q', h1, h2, h3⟩)
    · cases h
    · have : qs' = [] := by
        cases qs' with
        | nil => rfl
        | cons a l => simp at h1
      subst this
      simp only [List.nil_append, List.cons.injEq, and_true] at h1
      subst h1
      simp only [occupied] at h2 h3
      omega
  · rintro ⟨h1, h2⟩
    exact .inr ⟨[], q, rfl, by simp only [occupied]; omega, by simp only [occupied]; omega⟩

theorem fills_cons (q p : Nat × Bytes) (qs : List (Nat × Bytes)) (n : Nat) : Fills (q :: p :: qs) n ↔
    4 + q.2.length + pad q.2.length ≤ n ∧ Fills (p :: qs) (n - (4 + q.2.length + pad q.2.length)) := by
  constructor
  · rintro (⟨h, -⟩ | ⟨qs', q', h1, h2, h3⟩)
    · cases h
    · cases qs' with
      | nil => simp at h1
      | cons a l =>
        simp only [List.cons_append, List.cons.injEq] at h1
        obtain ⟨rfl, h1⟩ := h1
        simp only [occupied] at h2 h3
        refine ⟨by omega, .inr ⟨l, q', h1, by omega, ?_⟩⟩
        simp only [occupied]
        omega
  · rintro ⟨h0, ⟨h, -⟩ | ⟨qs', q', h1, h2, h3⟩⟩
    · cases h
    · refine .inr ⟨q :: qs', q', by rw [h1]; rfl, ?_, ?_⟩
      · simp only [occupied]; omega
      · simp only [occupied] at h3 ⊢; omega

/-- The parameters of a beginning are a beginning of the parameters. -/
theorem seq_prefix {x y : Bytes} {rs qs : List (Nat × Bytes)} (hr : ParamSeq x rs) (hq : ParamSeq (x ++ y) qs) : rs <+: qs := by
  induction hr generalizing qs with
  | nil => exact List.nil_prefix
  | cut tag value filler h1 h2 h3 =>
    have hq : ParamSeq (be16 tag ++ be16 (4 + value.length) ++ (value ++ filler ++ y)) qs := by simpa using hq
    obtain ⟨-, qs', rfl, -⟩ := seq_head h1 h2 hq
    rw [List.append_assoc, List.take_left' rfl]
    exact ⟨qs', rfl⟩
  | cons tag value filler rest ps h1 h2 h3 _ ih =>
    have hq : ParamSeq (be16 tag ++ be16 (4 + value.length) ++ (value ++ filler ++ (rest ++ y))) qs := by simpa using hq
    obtain ⟨-, qs', rfl, h4⟩ := seq_head h1 h2 hq
    rcases h4 with ⟨h4, -⟩ | ⟨-, h4⟩
    · simp only [List.length_append] at h4; omega
    · rw [List.drop_left' (by simp [h3])] at h4
      rw [List.append_assoc value, List.take_left' rfl]
      exact (List.prefix_cons_inj _).mpr (ih h4)

/-- How many octets a sequence has. -/
theorem seq_fills {b : Bytes} {qs : List (Nat × Bytes)} (h : ParamSeq b qs) : Fills qs b.length := by
  induction h with
  | nil => exact .inl ⟨rfl, rfl⟩
  | cut tag value filler h1 h2 h3 =>
    rw [fills_single]
    simp [be16]; omega
  | cons tag value filler rest ps h1 h2 h3 _ ih =>
    have e : (be16 tag ++ be16 (4 + value.length) ++ value ++ filler ++ rest).length = 4 + value.length + pad value.length + rest.length := by
      simp [be16]; omega
    rw [e]
    cases ps with
    | nil =>
      rcases ih with ⟨-, h⟩ | ⟨qs', q, h, -⟩
      · rw [fills_single, h]; dsimp only; omega
      · simp at h
    | cons p ps =>
      rw [fills_cons]
      dsimp only
      exact ⟨by omega, by rw [Nat.add_sub_cancel_left]; exact ih⟩

/-- The converse: a beginning that holds some parameters exactly is their sequence. -/
theorem take_seq {b : Bytes} {qs : List (Nat × Bytes)} (h : ParamSeq b qs) {rs : List (Nat × Bytes)} (hp : rs <+: qs) {n : Nat}
    (hn : n ≤ b.length) (hf : Fills rs n) : ParamSeq (b.take n) rs := by
  have short : ∀ (tag : Nat) (value filler rest : Bytes) (n : Nat), tag < 65536 → value.length ≤ maxValue → filler.length ≤ pad value.length →
      (filler.length < pad value.length → rest = []) →
      n ≤ (be16 tag ++ be16 (4 + value.length) ++ value ++ filler ++ rest).length → Fills [(tag, value)] n →
      ParamSeq ((be16 tag ++ be16 (4 + value.length) ++ value ++ filler ++ rest).take n) [(tag, value)] := by
    intro tag value filler rest n h1 h2 h3 h4 h5 h6
    rw [fills_single] at h6
    dsimp only at h6
    have hl : (be16 tag ++ be16 (4 + value.length) ++ value).length = 4 + value.length := by simp [be16]; omega
    have hfl : n - (4 + value.length) ≤ filler.length := by
      by_cases hx : filler.length < pad value.length
      · rw [h4 hx, List.append_nil, List.length_append, hl] at h5; omega
      · omega
    rw [List.append_assoc _ filler, List.take_append, hl, List.take_of_length_le (by omega), List.take_append_of_le_length hfl]
    by_cases hx : n - (4 + value.length) < pad value.length
    · exact .cut tag value _ h1 h2 (by rw [List.length_take]; omega)
    · have := ParamSeq.cons tag value (filler.take (n - (4 + value.length))) [] [] h1 h2 (by rw [List.length_take]; omega) .nil
      rwa [List.append_nil] at this
  induction h generalizing rs n with
  | nil =>
    rw [List.prefix_nil] at hp
    subst hp
    rw [List.take_nil]
    exact .nil
  | cut tag value filler h1 h2 h3 =>
    cases rs with
    | nil =>
      rcases hf with ⟨-, rfl⟩ | ⟨qs', q, h, -⟩
      · exact .nil
      · simp at h
    | cons r rs =>
      obtain ⟨t, ht⟩ := hp
      simp only [List.cons_append, List.cons.injEq, List.append_eq_nil_iff] at ht
      obtain ⟨rfl, rfl, rfl⟩ := ht
      have := short tag value filler [] n h1 h2 (by omega) (fun _ => rfl) (by rwa [List.append_nil]) hf
      rwa [List.append_nil] at this
  | cons tag value filler rest ps h1 h2 h3 _ ih =>
    cases rs with
    | nil =>
      rcases hf with ⟨-, rfl⟩ | ⟨qs', q, h, -⟩
      · exact .nil
      · simp at h
    | cons r rs =>
      obtain ⟨t, ht⟩ := hp
      simp only [List.cons_append, List.cons.injEq] at ht
      obtain ⟨rfl, ht⟩ := ht
      cases rs with
      | nil => exact short tag value filler rest n h1 h2 (by omega) (fun h => by omega) hn hf
      | cons p rs =>
        rw [fills_cons] at hf
        obtain ⟨f1, f2⟩ := hf
        dsimp only at f1 f2
        have hl : (be16 tag ++ be16 (4 + value.length) ++ value ++ filler).length = 4 + value.length + pad value.length := by
          simp [be16]; omega
        rw [List.length_append, hl] at hn
        rw [List.take_append, hl, List.take_of_length_le (by omega)]
        exact .cons tag value filler _ _ h1 h2 h3 (ih ⟨t, ht⟩ (by omega) f2)

/-- Which beginnings of a sequence are sequences, and of what. -/
theorem seq_take_iff {b : Bytes} {qs : List (Nat × Bytes)} (h : ParamSeq b qs) {n : Nat} (hn : n ≤ b.length) (rs : List (Nat × Bytes)) :
    ParamSeq (b.take n) rs ↔ rs <+: qs ∧ Fills rs n := by
  constructor
  · intro hr
    refine ⟨seq_prefix (y := b.drop n) hr (by rwa [List.take_append_drop]), ?_⟩
    have := seq_fills hr
    rwa [List.length_take, Nat.min_eq_left hn] at this
  · rintro ⟨h1, h2⟩
    exact take_seq h h1 hn h2

end Truncated

open Truncated

/-- C121: which beginnings of parameters `ParseMultiParams` accepts, and as what. -/
theorem c121_params (b : Bytes) (ps : List Param) (h : parseMultiParams b = .ok ps) (n : Nat) (hn : n ≤ b.length) (rs : List Param) :
    parseMultiParams (b.take n) = .ok rs ↔ rs <+: ps ∧ Fills (rs.map fun p => (p.tag.toNat, p.data)) n := by
  rw [c05_language]
  obtain ⟨h1, h2⟩ := (c05_language b ps).mp h
  rw [seq_take_iff h1 hn]
  constructor
  · rintro ⟨⟨h3, h4⟩, h5⟩
    refine ⟨?_, h4⟩
    obtain ⟨t, ht⟩ := h3
    have hl : rs.length ≤ ps.length := by
      have := congrArg List.length ht
      simp only [List.length_append, List.length_map] at this
      omega
    have key : rs = ps.take rs.length := by
      have e1 := congrArg (List.take rs.length) ht
      rw [List.take_left' (by simp), ← List.map_take] at e1
      refine List.ext_getElem (by simp [hl]) fun i hi hi' => ?_
      have e2 := List.getElem_of_eq e1 (i := i) (by simpa using hi)
      simp only [List.getElem_map, Prod.mk.injEq] at e2
      have e3 := h5 _ (List.getElem_mem hi)
      have e4 := h2 _ (List.mem_of_mem_take (List.getElem_mem hi'))
      generalize rs[i] = p at *
      generalize (List.take rs.length ps)[i] = q at *
      obtain ⟨a1, a2, a3⟩ := p
      obtain ⟨b1, b2, b3⟩ := q
      simp only at e2 e3 e4
      obtain ⟨e2, rfl⟩ := e2
      obtain rfl := UInt16.toNat_inj.mp e2
      obtain rfl := UInt16.toNat_inj.mp (e3.trans e4.symm)
      rfl
    rw [key]
    exact List.take_prefix _ _
  · rintro ⟨⟨t, rfl⟩, h4⟩
    exact ⟨⟨⟨t.map _, by rw [List.map_append]⟩, h4⟩, fun p hp => h2 p (List.mem_append_left _ hp)⟩

/-- A datagram that `messages.Parse` accepts denotes a sequence of parameters. -/
theorem Truncated.seq_of_parse {b : Bytes} {m : M3UA} (h : M3UA.parse b = .ok m) : ∃ qs, ParamSeq (b.drop 8) qs := by
  by_cases hq : ∃ qs, ParamSeq (b.drop 8) qs
  · exact hq
  · obtain ⟨e, he⟩ := c23_bad_body b fun qs h => hq ⟨qs, h⟩
    rw [he] at h; cases h

/-- C121: a beginning of a datagram that `messages.Parse` accepts is accepted exactly if it ends with the header or at the end of a
parameter, before, in or after its padding. -/
theorem c121_accepts (b : Bytes) (m : M3UA) (h : M3UA.parse b = .ok m) (qs : List (Nat × Bytes)) (hq : ParamSeq (b.drop 8) qs) (n : Nat)
    (hn : n ≤ b.length) : (∃ m', M3UA.parse (b.take n) = .ok m') ↔ 8 ≤ n ∧ ∃ rs, rs <+: qs ∧ Fills rs (n - 8) := by
  obtain ⟨h8, hk⟩ := parse_kind b m h
  have hd : (b.take n).drop 8 = (b.drop 8).take (n - 8) := by rw [List.drop_take]
  have hlen : n - 8 ≤ (b.drop 8).length := by rw [List.length_drop]; omega
  constructor
  · rintro ⟨m', h'⟩
    obtain ⟨h8', -⟩ := parse_kind _ m' h'
    rw [List.length_take] at h8'
    obtain ⟨rs, hr⟩ := seq_of_parse h'
    rw [hd] at hr
    exact ⟨by omega, rs, (seq_take_iff hq hlen rs).mp hr⟩
  · rintro ⟨h8', rs, hr⟩
    have hr' := (seq_take_iff hq hlen rs).mpr hr
    rw [← hd] at hr'
    have hl : 8 ≤ (b.take n).length := by rw [List.length_take]; omega
    have g : ∀ i, i < 8 → (b.take n).getD i 0 = b.getD i 0 := by
      intro i hi
      simp only [List.getD_eq_getElem?_getD, List.getElem?_take]
      rw [if_pos (by omega)]
    by_cases hx : ∃ k : Kind, k.cls * 16 + k.typ = ((b.getD 2 0).toNat * 16) % 256 ||| (b.getD 3 0).toNat
    · obtain ⟨k, hk'⟩ := hx
      refine (c23_accept_iff _ hl k (by rw [g 2 (by omega), g 3 (by omega)]; exact hk') rs hr').mpr fun q hq' => ?_
      exact (c23_accept_iff b h8 k hk' qs hq).mp ⟨m, h⟩ q (hr.1.subset hq')
    · obtain ⟨g', hg, -⟩ := c23_generic _ hl (by
        intro k
        rw [g 2 (by omega), g 3 (by omega)]
        exact fun hk' => hx ⟨k, hk'⟩) rs hr'
      exact ⟨_, hg⟩

/-- C121: what is accepted then: a message of the same kind with the same header, length field included, that has the parameters which
arrived and no others. -/
theorem c121_message (b : Bytes) (m : M3UA) (h : M3UA.parse b = .ok m) (qs : List (Nat × Bytes)) (hq : ParamSeq (b.drop 8) qs) (n : Nat)
    (hn : n ≤ b.length) (m' : M3UA) (h' : M3UA.parse (b.take n) = .ok m') :
    m'.kind = m.kind ∧ m'.header.head = m.header.head ∧ field32 (b.take n) 4 = field32 b 4 ∧
      ∃ rs, rs <+: qs ∧ Fills rs (n - 8) ∧ ParamSeq ((b.take n).drop 8) rs ∧ m'.Encodes (b.take 8 ++ Spec.tlvs (kept m.kind rs)) := by
  obtain ⟨h8, hk⟩ := parse_kind b m h
  obtain ⟨h8', hk'⟩ := parse_kind _ m' h'
  have h8n : 8 ≤ n := by rw [List.length_take] at h8'; omega
  have hd : (b.take n).drop 8 = (b.drop 8).take (n - 8) := by rw [List.drop_take]
  have hlen : n - 8 ≤ (b.drop 8).length := by rw [List.length_drop]; omega
  have g : ∀ i, i < 8 → (b.take n).getD i 0 = b.getD i 0 := by
    intro i hi
    simp only [List.getD_eq_getElem?_getD, List.getElem?_take]
    rw [if_pos (by omega)]
  have ek : m'.kind = m.kind := by rw [hk, hk', g 2 (by omega), g 3 (by omega)]
  have et : (b.take n).take 8 = b.take 8 := by rw [List.take_take, Nat.min_eq_left h8n]
  obtain ⟨rs, hr⟩ := seq_of_parse h'
  have hr' := hr
  rw [hd] at hr'
  obtain ⟨r1, r2⟩ := (seq_take_iff hq hlen rs).mp hr'
  refine ⟨ek, ?_, ?_, rs, r1, r2, hr, ?_⟩
  · rw [header_take (selected_of_parse h).2, header_take (selected_of_parse h').2, et]
  · simp only [field32]
    rw [g 4 (by omega), g 5 (by omega), g 6 (by omega), g 7 (by omega)]
  · have := c104_bytes _ m' h' rs hr
    rwa [et, ek] at this

/-- C121: no message is safe: of everything that is accepted the first eight octets are accepted too, as a message of that kind without
parameters. -/
theorem c121_bare (b : Bytes) (m : M3UA) (h : M3UA.parse b = .ok m) :
    ∃ m', M3UA.parse (b.take 8) = .ok m' ∧ m'.kind = m.kind ∧ m'.Encodes (b.take 8) := by
  obtain ⟨h8, -⟩ := parse_kind b m h
  obtain ⟨qs, hq⟩ := seq_of_parse h
  obtain ⟨m', h'⟩ := (c121_accepts b m h qs hq 8 h8).mpr ⟨Nat.le_refl _, [], List.nil_prefix, .inl ⟨rfl, rfl⟩⟩
  obtain ⟨h1, -, -, rs, h2, h3, h4, h5⟩ := c121_message b m h qs hq 8 h8 m' h'
  have : rs = [] := by
    rcases h3 with ⟨h3, -⟩ | ⟨qs', q, h3, h6, -⟩
    · exact h3
    · omega
  subst this
  refine ⟨m', h', h1, ?_⟩
  have e : Spec.tlvs (kept m.kind []) = [] := by
    cases m.kind with
    | none => rfl
    | some k => cases k <;> rfl
  rwa [e, List.append_nil] at h5

/-- C121: a length field that was right shows that something is missing, but nobody looks (C29). -/
theorem c121_length (b : Bytes) (h8 : field32 b 4 = b.length) (n : Nat) (hn : n < b.length) (m' : M3UA)
    (h' : M3UA.parse (b.take n) = .ok m') : (b.take n).length < field32 (b.take n) 4 := by
  obtain ⟨h8', -⟩ := parse_kind _ m' h'
  rw [List.length_take] at h8' ⊢
  have g : ∀ i, i < 8 → (b.take n).getD i 0 = b.getD i 0 := by
    intro i hi
    simp only [List.getD_eq_getElem?_getD, List.getElem?_take]
    rw [if_pos (by omega)]
  have : field32 (b.take n) 4 = field32 b 4 := by
    simp only [field32]
    rw [g 4 (by omega), g 5 (by omega), g 6 (by omega), g 7 (by omega)]
  omega

end M3
