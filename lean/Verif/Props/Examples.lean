import Verif.Model.Examples
import Verif.Props.Params
import Verif.Props.Messages
import Verif.Props.Pc

/- The program `pc-conv` and the entry points for fuzzing: C112. -/

set_option autoImplicit false
set_option linter.unusedSimpArgs false

namespace M3

open Pc Spec Examples

theorem split_dash (s : Bytes) : 2 ≤ (split s).length ↔ 0x2d ∈ s := by
  have h1 : ∀ s : Bytes, 1 ≤ (split s).length := fun s => by
    have := split_ne_nil s
    exact List.length_pos_iff.mpr this
  induction s with
  | nil => simp [split]
  | cons b s ih =>
    rw [split]
    by_cases hb : b = 0x2d
    · rw [if_pos hb, List.length_cons]
      have := h1 s
      simp [hb]
      exact this
    · rw [if_neg hb, List.mem_cons]
      cases hs : split s with
      | nil => exact absurd hs (split_ne_nil s)
      | cons p ps =>
        rw [hs] at ih
        simp only [List.length_cons] at ih ⊢
        refine ih.trans ?_
        constructor
        · exact .inr
        · rintro (h | h)
          · exact absurd h.symm hb
          · exact h

theorem new_none (raw : BitVec 32) (v : Variant) : newPointCode raw v = none ↔ v = [] := by
  have key : ∀ n, convRawToStr n v = none ↔ v = [] := fun n => by
    rw [convRawToStr]
    by_cases h : v = variantNone
    · rw [if_pos h]; exact ⟨fun _ => h, fun _ => rfl⟩
    · rw [if_neg h]; exact ⟨fun h' => by simp at h', fun h' => absurd h' h⟩
  have := key (raw &&& (((1 : BitVec 32) <<< bitLength v) - 1))
  simp only [newPointCode, PointCode.convertTo]
  cases hc : convRawToStr (raw &&& (((1 : BitVec 32) <<< bitLength v) - 1)) v with
  | none => rw [hc] at this; simpa using this.mp rfl
  | some s => rw [hc] at this; simpa using this

theorem orValue_lt : ∀ ws cs : List Nat, orValue ws cs < 2 ^ 32
  | [], _ => by simp [orValue]
  | _ :: _, [] => by simp [orValue]
  | w :: ws, c :: cs => by
    rw [orValue]
    exact Nat.or_lt_two_pow (Nat.mod_lt _ (by decide)) (orValue_lt ws cs)

theorem from_dash {s : Bytes} {v : PcVariant} {p : Pc.PointCode} (h : newPointCodeFrom s (goVariant v) = some p) : 0x2d ∈ s := by
  rw [newPointCodeFrom, if_neg (variant_ne_none v), convStrToRaw, if_neg (variant_ne_none v)] at h
  have hlen : ¬ (split s).length = 0 := fun h0 => split_ne_nil s (List.length_eq_zero_iff.mp h0)
  simp only [if_neg hlen, variant_slice, List.length_map] at h
  by_cases hl : (split s).length = v.widths.length
  · rw [← split_dash, hl]
    cases v <;> decide
  · simp [hl] at h

/-- C112: `pc-conv` refuses to work exactly if it is given neither a number nor a point code; the number 0 counts as given. It objects to a point code
without a dash. It panics exactly if the variant is empty and there is a positive number to convert, or if there is a point code with a dash that
`NewPointCodeFrom` refuses. -/
theorem c112_end (raw : Int) (str variant : Bytes) :
    ((pcConv raw str variant).2 = .required ↔ raw < 0 ∧ str = []) ∧
    ((pcConv raw str variant).2 = .unsplit ↔ str ≠ [] ∧ 0x2d ∉ str ∧ (raw ≤ 0 ∨ variant ≠ [])) ∧
    ((pcConv raw str variant).2 = .panic ↔ (0 < raw ∧ variant = []) ∨ (0x2d ∈ str ∧ newPointCodeFrom str variant = none)) := by
  have hd : 0x2d ∈ str → str ≠ [] := fun h => List.ne_nil_of_mem h
  have hs := split_dash str
  unfold pcConv fromRaw fromStr
  by_cases h0 : raw < 0 ∧ str = []
  · rw [if_pos h0]
    obtain ⟨h0, rfl⟩ := h0
    simp [h0]
    omega
  · rw [if_neg h0]
    by_cases hr : raw > 0
    · rw [if_pos hr]
      cases hn : newPointCode (BitVec.ofInt 32 raw) variant with
      | none =>
        have := (new_none _ _).mp hn
        simp [report, this, hr]
        omega
      | some p =>
        have hv : variant ≠ [] := fun h => by rw [(new_none _ _).mpr h] at hn; cases hn
        simp only [report]
        by_cases he : str = []
        · subst he; simp [hv]; omega
        · rw [if_pos he]
          by_cases hl : (split str).length < 2
          · have hm : 0x2d ∉ str := fun h => by have := hs.mpr h; omega
            rw [if_pos hl]; simp [he, hm, hv]
          · have hm : 0x2d ∈ str := hs.mp (by omega)
            rw [if_neg hl]
            cases hf : newPointCodeFrom str variant <;> simp [report, he, hm, hv, hf]
    · rw [if_neg hr]
      by_cases he : str = []
      · subst he
        simp [hr]
        simp at h0
        omega
      · rw [if_pos he]
        by_cases hl : (split str).length < 2
        · have hm : 0x2d ∉ str := fun h => by have := hs.mpr h; omega
          rw [if_pos hl]; simp [he, hm, hr]; omega
        · have hm : 0x2d ∈ str := hs.mp (by omega)
          rw [if_neg hl]
          cases hf : newPointCodeFrom str variant <;> simp [report, he, hm, hr, hf]

/-- C112: so with a variant of the library (other than 4-4-6) it panics exactly if the point code has a dash but is not made of as many decimal numbers as the
variant has groups. -/
theorem c112_panic (raw : Int) (str : Bytes) (v : PcVariant) (h : v ≠ .v446) :
    (pcConv raw str (goVariant v)).2 = .panic ↔ 0x2d ∈ str ∧ ¬ ∃ cs, cs.length = v.widths.length ∧ Parsable cs str := by
  rw [(c112_end raw str (goVariant v)).2.2]
  have hv : ¬ goVariant v = [] := variant_ne_none v
  simp only [hv, and_false, false_or]
  refine and_congr_right fun _ => ?_
  constructor
  · rintro hn ⟨cs, h1, h2⟩
    have := (c35_accept str v h ⟨BitVec.ofNat 32 (orValue v.widths cs), str, goVariant v⟩)
    rw [hn] at this
    refine absurd (this.mpr ⟨cs, h1, h2, ?_, rfl, rfl⟩) nofun
    show (BitVec.ofNat 32 (orValue v.widths cs)).toNat = _
    rw [BitVec.toNat_ofNat, Nat.mod_eq_of_lt (orValue_lt v.widths cs)]
  · intro hn
    cases hf : newPointCodeFrom str (goVariant v) with
    | none => rfl
    | some p =>
      obtain ⟨cs, h1, h2, -⟩ := (c35_accept str v h p).mp hf
      exact absurd ⟨cs, h1, h2⟩ hn

/-- C112: a positive number is converted: its low bits, as many as the variant has, and their positional representation. Nothing tells the user that there were more. -/
theorem c112_raw (raw : Int) (hr : 0 < raw) (v : PcVariant) (h : v ≠ .v446) :
    ∃ l cs, pcConv raw [] (goVariant v) = ([l], .success) ∧ l.raw.toNat = raw.toNat % 2 ^ v.bits ∧ l.variant = goVariant v ∧
      InRange v.widths cs ∧ positional v.widths cs = raw.toNat % 2 ^ v.bits ∧ Formats cs l.formatted := by
  obtain ⟨p, cs, h1, h2, h3, h4, h5, h6⟩ := c32_format (BitVec.ofInt 32 raw) v h
  have hn : (BitVec.ofInt 32 raw).toNat % 2 ^ v.bits = raw.toNat % 2 ^ v.bits := by
    have hd : 2 ^ v.bits ∣ 2 ^ 32 := Nat.pow_dvd_pow 2 (variant_bits v)
    rw [BitVec.toNat_ofInt, show (raw % ((2 ^ 32 : Nat) : Int)).toNat = raw.toNat % 2 ^ 32 by omega, Nat.mod_mod_of_dvd _ hd]
  rw [hn] at h3 h5
  refine ⟨⟨p.uint32, p.string, p.variant⟩, cs, ?_, h5, h6, h2, h3, h4⟩
  unfold pcConv fromRaw fromStr
  rw [if_neg (by omega), if_pos hr, h1]
  rfl

/-- C112: the number 0, although a point code, is not converted: nothing is printed, and the program ends as if all was well. -/
theorem c112_zero (variant : Bytes) : pcConv 0 [] variant = ([], .success) := rfl

/-- C112: a point code with all groups in range is converted to its positional value. -/
theorem c112_str (s : Bytes) (v : PcVariant) (h : v ≠ .v446) (cs : List Nat) (hc : InRange v.widths cs) (hs : Parsable cs s) :
    ∃ l, pcConv (-1) s (goVariant v) = ([l], .success) ∧ l.raw.toNat = positional v.widths cs ∧ l.formatted = s ∧ l.variant = goVariant v := by
  obtain ⟨p, h1, h2, -, h3, h4⟩ := c35_in_range s v h cs hc hs
  have hm := from_dash h1
  have hne : s ≠ [] := List.ne_nil_of_mem hm
  refine ⟨⟨p.uint32, p.string, p.variant⟩, ?_, h2, h3, h4⟩
  unfold pcConv fromRaw fromStr
  rw [if_neg (fun h => hne h.2), if_neg (by omega), if_pos hne, if_neg (by have := (split_dash s).mpr hm; omega), h1]
  rfl

/-- C112: given both, it prints both, the number first. -/
theorem c112_both (raw : Int) (hr : 0 < raw) (s : Bytes) (v : PcVariant) (h : v ≠ .v446) (cs : List Nat) (hc : InRange v.widths cs) (hs : Parsable cs s) :
    ∃ l l', pcConv raw s (goVariant v) = ([l, l'], .success) ∧ pcConv raw [] (goVariant v) = ([l], .success) ∧
      pcConv (-1) s (goVariant v) = ([l'], .success) := by
  obtain ⟨l, -, h1, -⟩ := c112_raw raw hr v h
  obtain ⟨l', h2, -⟩ := c112_str s v h cs hc hs
  have hne : s ≠ [] := by
    rintro rfl
    rw [show pcConv (-1) [] (goVariant v) = ([], .required) from rfl] at h2
    cases h2
  refine ⟨l, l', ?_, h1, h2⟩
  unfold pcConv at h1 h2 ⊢
  rw [if_neg (by omega), show fromStr [] (goVariant v) = ([], .success) from rfl] at h1
  rw [if_neg (fun h => hne h.2), show fromRaw (-1) (goVariant v) = ([], .success) from rfl] at h2
  rw [if_neg (by omega)]
  cases hf : fromRaw raw (goVariant v) with
  | mk a e =>
    rw [hf] at h1
    cases e <;> simp_all

/-- C112: what it prints for a number it accepts as a point code, and prints the same again. -/
theorem c112_back (raw : Int) (hr : 0 < raw) (v : PcVariant) (h : v ≠ .v446) :
    ∃ l, pcConv raw [] (goVariant v) = ([l], .success) ∧ pcConv (-1) l.formatted (goVariant v) = ([l], .success) := by
  obtain ⟨l, cs, h1, h2, h3, h4, h5, h6⟩ := c112_raw raw hr v h
  obtain ⟨l', g1, g2, g3, g4⟩ := c112_str l.formatted v h cs h4 (formats_parsable h4 (variant_bits v) h6)
  refine ⟨l, h1, ?_⟩
  rw [g1]
  obtain ⟨a, b, c⟩ := l
  obtain ⟨a', b', c'⟩ := l'
  simp only at h2 h3 h5 g2 g3 g4
  rw [g3, g4, h3, show a' = a from BitVec.eq_of_toNat_eq (by rw [g2, h2, h5])]

/-- C112: the entry points for fuzzing return, whatever the input: 1 for a non-empty sequence of parameters, and for a message; 0 for everything else. -/
theorem c112_fuzz (b : Bytes) :
    (fuzzParams b = .ok 1 ∨ fuzzParams b = .ok 0) ∧ (fuzzParams b = .ok 1 ↔ b ≠ [] ∧ ∃ qs, ParamSeq b qs) ∧
    (fuzzMessages b = .ok 1 ∨ fuzzMessages b = .ok 0) ∧ (fuzzMessages b = .ok 1 ↔ ∃ m, M3UA.parse b = .ok m) := by
  have hone : (∃ p, Param.parse b = .ok p) ∨ ∃ e, Param.parse b = .err e := by
    have := c03_no_panic b
    cases h : Param.parse b with
    | ok p => exact .inl ⟨p, rfl⟩
    | err e => exact .inr ⟨e, rfl⟩
    | panic => exact absurd h this.1
    | diverge => exact absurd h this.2
  have hfirst : ∀ ps, b ≠ [] → parseMultiParams b = .ok ps → ∃ p, Param.parse b = .ok p := by
    intro ps hb hp
    rcases hone with h | ⟨e, he⟩
    · exact h
    · cases b with
      | nil => exact absurd rfl hb
      | cons x xs =>
        rw [parseMultiParams, List.length_cons, parseMultiLoop, he] at hp
        cases hp
  refine ⟨?_, ?_, ?_, ?_⟩
  · unfold fuzzParams
    rcases hone with ⟨p, h⟩ | ⟨e, h⟩ <;> rw [h]
    · rcases c04_total b with ⟨ps, g⟩ | g | g <;> rw [g] <;> simp
    · simp
  · rw [← c05_accept_iff]
    constructor
    · intro hf
      refine ⟨?_, ?_⟩
      · rintro rfl
        exact absurd hf (by decide)
      · unfold fuzzParams at hf
        rcases hone with ⟨p, h⟩ | ⟨e, h⟩ <;> rw [h] at hf
        · rcases c04_total b with g | g | g
          · exact g
          · rw [g] at hf; simp at hf
          · rw [g] at hf; simp at hf
        · simp at hf
    · rintro ⟨hb, ps, hp⟩
      obtain ⟨p, h⟩ := hfirst ps hb hp
      rw [fuzzParams, h, hp]
  · unfold fuzzMessages
    rcases c20_parse b with ⟨m, h⟩ | ⟨e, h, -⟩ <;> rw [h] <;> simp
  · unfold fuzzMessages
    rcases c20_parse b with ⟨m, h⟩ | ⟨e, h, -⟩ <;> rw [h] <;> simp

/-- The example from the usage text: 1-2-3 in the format 3-8-3. -/
example : pcConv (-1) [0x31, 0x2d, 0x32, 0x2d, 0x33] (goVariant .v383) = ([⟨2067, [0x31, 0x2d, 0x32, 0x2d, 0x33], goVariant .v383⟩], .success) := by
  decide +kernel
example : pcConv 2067 [] (goVariant .v383) = ([⟨2067, [0x31, 0x2d, 0x32, 0x2d, 0x33], goVariant .v383⟩], .success) := by decide +kernel
/-- Two groups for a format of three: a panic, not a message. -/
example : pcConv (-1) [0x31, 0x2d, 0x32] (goVariant .v383) = ([], .panic) := by decide +kernel
/-- 2^32 + 1 is silently taken for 1. -/
example : (pcConv 4294967297 [] (goVariant .v383)).1.map (·.raw) = [1] := by decide +kernel

/-- The two runs shown in `README.md:38-44`: `-raw 1234 -variant 3-8-3` and `-str 1-234-5 -variant 4-3-7`. In the latter the second number does not fit its three bits:
the number `29957` has more than 14 bits, and converted back it is `13573`, `13-2-5`. -/
example : pcConv 1234 [] (goVariant .v383) = ([⟨1234, [0x30, 0x2d, 0x31, 0x35, 0x34, 0x2d, 0x32], goVariant .v383⟩], .success) := by decide +kernel
example : pcConv (-1) [0x31, 0x2d, 0x32, 0x33, 0x34, 0x2d, 0x35] (goVariant .v437) =
    ([⟨29957, [0x31, 0x2d, 0x32, 0x33, 0x34, 0x2d, 0x35], goVariant .v437⟩], .success) := by decide +kernel
example : pcConv 29957 [] (goVariant .v437) = ([⟨13573, [0x31, 0x33, 0x2d, 0x32, 0x2d, 0x35], goVariant .v437⟩], .success) := by decide +kernel
example : fuzzParams [0, 4, 0, 6, 0x61, 0x62, 0, 0] = .ok 1 ∧ fuzzParams [0, 4, 0, 3] = .ok 0 ∧ fuzzMessages [1, 0, 3, 1, 0, 0, 0, 8] = .ok 1 := by
  decide +kernel

end M3
