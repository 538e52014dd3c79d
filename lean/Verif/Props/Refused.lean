import Verif.Model.Errors
import Verif.Props.Messages
import Verif.Spec.Refused

/- Why a datagram is refused: C98. -/

set_option autoImplicit false
set_option linter.unusedSimpArgs false

namespace M3

open Spec Msg

theorem whole_then {pre : Bytes} (h : Whole pre) (rest : Bytes) (e : Err) (he : parseMultiParams rest = .err e) :
    parseMultiParams (pre ++ rest) = .err e := by
  induction h with
  | nil => exact he
  | cons tag value filler tail ht hv hf _ ih =>
    have hv' : value.length ≤ 65531 := hv
    have hc : (Param.ofSpec (tag, value)).Consistent := (Param.consistent_iff _).mpr ⟨hv, rfl⟩
    have hh : (Param.ofSpec (tag, value)).head = be16 tag ++ be16 (4 + value.length) ++ value := by
      rw [Param.head, u16bytes_spec, u16bytes_spec]
      simp only [Param.ofSpec, UInt16.toNat_ofNat']
      rw [Nat.mod_eq_of_lt ht, Nat.mod_eq_of_lt (by omega)]
    rw [← hh, List.append_assoc, parseMulti_cons _ hc filler _ hf, ih]
    rfl

theorem fault_parse {f : Fault} {rest : Bytes} (h : f.At rest) :
    parseMultiParams rest = .err (Refusal.sentinel (.body f)) := by
  have hne : rest ≠ [] := by
    rintro rfl
    cases f
    · exact absurd h.1 (by simp)
    · exact absurd h.1 (by simp)
  rw [parseMulti_step _ hne]
  cases f with
  | stub => rw [(c03_short rest).mpr h.2]; rfl
  | length => rw [(c03_invalid rest).mpr h]; rfl

theorem broken_of_err {b : Bytes} {e : Err} (h : parseMultiParams b = .err e) : ∃ f, Broken f b ∧ e = Refusal.sentinel (.body f) := by
  induction hn : b.length using Nat.strongRecOn generalizing b with
  | ind n ih =>
    by_cases hb : b = []
    · subst hb; rw [parseMulti_nil] at h; cases h
    · have hpos : 0 < b.length := List.length_pos_iff.mpr hb
      rw [parseMulti_step b hb] at h
      cases hp : Param.parse b with
      | ok p =>
        obtain ⟨rest, hrest, hl⟩ := Param.parse_ok hp
        have hcons : p.Consistent := hl
        rw [hp] at h
        simp only [Res.bind_ok] at h
        have hhead : p.head = be16 p.tag.toNat ++ be16 (4 + p.data.length) ++ p.data := by
          rw [Param.head, u16bytes_spec, u16bytes_spec, hl]
        have hblen : b.length = 4 + p.data.length + rest.length := by rw [hrest]; simp
        split at h
        · cases h
        · rename_i hlt
          rw [Param.padding_eq] at h hlt
          have hdrop : b.drop (p.length.toNat + pad p.data.length) = rest.drop (pad p.data.length) := by
            have e : p.length.toNat + pad p.data.length = p.head.length + pad p.data.length := by
              rw [Param.head_length, hl]
            rw [hrest, e, List.drop_append]; simp
          cases hr : parseMultiParams (b.drop (p.length.toNat + pad p.data.length)) with
          | ok qs => rw [hr] at h; cases h
          | err e' =>
            rw [hr] at h; cases h
            obtain ⟨f, ⟨pre, tail, h1, h2, h3⟩, h4⟩ := ih _ (by simp; omega) hr rfl
            refine ⟨f, ⟨p.head ++ rest.take (pad p.data.length) ++ pre, tail, ?_, ?_, h3⟩, h4⟩
            · rw [List.append_assoc, ← h1, hdrop, List.append_assoc, List.take_append_drop, ← hrest]
            · rw [hhead]
              exact .cons _ _ _ _ p.tag.toNat_lt hcons.data_le (by simp; omega) h2
          | panic => rw [hr] at h; cases h
          | diverge => rw [hr] at h; cases h
      | err e' =>
        rw [hp] at h; cases h
        by_cases hs : b.length < 4
        · rw [Param.parse_short b hs] at hp; cases hp
          exact ⟨.stub, ⟨[], b, rfl, .nil, hpos, hs⟩, rfl⟩
        · have : e = .paramInvalidLength := by
            obtain ⟨b0, b1, b2, b3, d, rfl⟩ := Param.four_split b (by omega)
            rw [Param.parse_cons] at hp
            split at hp <;> cases hp
            rfl
          subst this
          exact ⟨.length, ⟨[], b, rfl, .nil, (c03_invalid b).mp hp⟩, rfl⟩
      | panic => rw [hp] at h; cases h
      | diverge => rw [hp] at h; cases h

/-- C98: `ParseMultiParams` fails exactly if complete parameters are followed by something that is none, and the error says what is wrong with it. -/
theorem c98_params (b : Bytes) (e : Err) : parseMultiParams b = .err e ↔ ∃ f, Broken f b ∧ e = Refusal.sentinel (.body f) := by
  constructor
  · exact broken_of_err
  · rintro ⟨f, ⟨pre, rest, rfl, h1, h2⟩, rfl⟩
    exact whole_then h1 rest _ (fault_parse h2)

-- an Info String, then three bytes; an Info String, then a parameter with length 3
example : Broken .stub ([0, 4, 0, 5, 0x61, 9, 9, 9] ++ [0, 4, 0]) :=
  ⟨_, _, rfl, .cons 4 [0x61] [9, 9, 9] [] (by decide) (by decide) (by decide) .nil, by decide, by decide⟩
example : Broken .length ([0, 4, 0, 5, 0x61, 9, 9, 9] ++ [0, 4, 0, 3, 0x61]) :=
  ⟨_, _, rfl, .cons 4 [0x61] [9, 9, 9] [] (by decide) (by decide) (by decide) .nil, by decide, .inl (by decide)⟩

/-- The error for a parameter that the message does not define. -/
def unknownErr : Kind → Err
  | .duna => .wrapped "DUNA" .msgInvalidParameter
  | .dava => .wrapped "DAVA" .msgInvalidParameter
  | .daud => .wrapped "DAUD" .msgInvalidParameter
  | .dupu => .wrapped "DUPU" .msgInvalidParameter
  | .drst => .wrapped "DRST" .msgInvalidParameter
  | _ => .msgInvalidParameter

theorem exists_view_bad (k : Kind) :
    ∃ (M : Type) (_ : Codec M) (inj : M → M3UA), View k M inj ∧ Codec.bad M = unknownErr k := by
  cases k
  · exact ⟨_, _, _, view_error, rfl⟩
  · exact ⟨_, _, _, view_notify, rfl⟩
  · exact ⟨_, _, _, view_data, rfl⟩
  · exact ⟨_, _, _, view_duna, rfl⟩
  · exact ⟨_, _, _, view_dava, rfl⟩
  · exact ⟨_, _, _, view_daud, rfl⟩
  · exact ⟨_, _, _, view_scon, rfl⟩
  · exact ⟨_, _, _, view_dupu, rfl⟩
  · exact ⟨_, _, _, view_drst, rfl⟩
  · exact ⟨_, _, _, view_aspUp, rfl⟩
  · exact ⟨_, _, _, view_aspDown, rfl⟩
  · exact ⟨_, _, _, view_heartbeat, rfl⟩
  · exact ⟨_, _, _, view_aspUpAck, rfl⟩
  · exact ⟨_, _, _, view_aspDownAck, rfl⟩
  · exact ⟨_, _, _, view_heartbeatAck, rfl⟩
  · exact ⟨_, _, _, view_aspActive, rfl⟩
  · exact ⟨_, _, _, view_aspInactive, rfl⟩
  · exact ⟨_, _, _, view_aspActiveAck, rfl⟩
  · exact ⟨_, _, _, view_aspInactiveAck, rfl⟩

/-- The error value itself, not only what it wraps. -/
theorem bad_exact (m : M3UA) (k : Kind) (hk : m.kind = some k) (b : Bytes) {e : Err} (h : m.unmarshalBinary b = .err e)
    (he : e.root = .msgInvalidParameter) : e = unknownErr k := by
  obtain ⟨M, C, inj, v, hb⟩ := exists_view_bad k
  obtain ⟨x, rfl⟩ := v.surj m hk
  rw [v.unmarshalBinary, Codec.unmarshal_exact] at h
  rcases Header.parse_total b with ⟨hl, h1⟩ | ⟨hl, hd, h1, -⟩
  · rw [h1] at h; cases h; cases he
  · rw [h1] at h
    simp only [Res.bind_ok] at h
    rcases parseMulti_total hd.payload with ⟨ps, h2⟩ | h2 | h2
    · rw [h2] at h
      simp only [Res.bind_ok] at h
      split at h
      · cases h
      · cases h; exact hb
    · rw [h2] at h; cases h; cases he
    · rw [h2] at h; cases h; cases he

/-- The error of `messages.Parse` for a reason. -/
def refusalErr : Refusal → Err
  | .unknown k => unknownErr k
  | r => r.sentinel

theorem parse_refused (b : Bytes) (e : Err) : M3UA.parse b = .err e ↔ ∃ r : Refusal, r.Of b ∧ e = refusalErr r := by
  have dir : ∀ {e}, M3UA.parse b = .err e → ∃ r : Refusal, r.Of b ∧ e = refusalErr r := by
    intro e h
    by_cases hb : b.length < 8
    · rw [(c20_short b).mpr hb] at h; cases h
      exact ⟨.short, hb, rfl⟩
    · have hb : 8 ≤ b.length := by omega
      have hsel := M3UA.parse_long b (by omega)
      have fin : ∀ hd : Header, b = hd.head ++ hd.payload → parseMultiParams hd.payload = .err e → ∃ r : Refusal, r.Of b ∧ e = refusalErr r := by
        intro hd hbd hp
        have hpl : hd.payload = b.drop 8 := by rw [hbd, drop_head]
        rw [hpl] at hp
        obtain ⟨f, h1, h2⟩ := (c98_params _ _).mp hp
        exact ⟨.body f, ⟨hb, h1⟩, h2⟩
      cases hs : M3UA.selected (b.getD 2 0) (b.getD 3 0) with
      | none =>
        rw [hsel, hs] at h
        rcases M3UA.unmarshal_generic Generic.zero b with ⟨_, _⟩ | ⟨_, hd, _, hbd, ⟨e', he, h'⟩ | ⟨_, _, h'⟩⟩
        · omega
        · rw [M3UA.empty, h'] at h; cases h; exact fin hd hbd he
        · rw [M3UA.empty, h'] at h; cases h
      | some k =>
        have hk : k.cls * 16 + k.typ = ((b.getD 2 0).toNat * 16) % 256 ||| (b.getD 3 0).toNat := by
          have := List.find?_some hs
          simpa using this
        rw [hsel, hs] at h
        rcases M3UA.unmarshal_typed _ k (M3UA.empty_kind (some k)) b with ⟨_, _⟩ | ⟨_, hd, _, hbd, h'⟩
        · omega
        · rcases h' with ⟨_, he, h'⟩ | ⟨ps, hps, ⟨_, m', h', _⟩ | ⟨hn, e', he, h'⟩⟩
          · rw [h'] at h; cases h; exact fin hd hbd he
          · rw [h'] at h; cases h
          · have hpl : hd.payload = b.drop 8 := by rw [hbd, drop_head]
            rw [hpl] at hps
            rw [h'] at h; cases h
            refine ⟨.unknown k, ⟨hb, hk, _, paramSeq_of_parse hps, ?_⟩, bad_exact _ k (M3UA.empty_kind (some k)) b h' he⟩
            obtain ⟨p, hp⟩ := Classical.not_forall.mp hn
            obtain ⟨hp, hp'⟩ := Classical.not_imp.mp hp
            refine ⟨_, List.mem_map.mpr ⟨p, hp, rfl⟩, fun n hn hc => hp' ?_⟩
            exact (mem_knownTags k p.tag).mpr ⟨n, hn, hc⟩
  refine ⟨dir, ?_⟩
  rintro ⟨r, hr, rfl⟩
  have uniq : ∀ r r' : Refusal, r.Of b → r'.Of b → refusalErr r = refusalErr r' := by
    have lift : ∀ {f}, Broken f (b.drop 8) → parseMultiParams (b.drop 8) = .err (Refusal.sentinel (.body f)) :=
      fun {f} h => (c98_params _ _).mpr ⟨f, h, rfl⟩
    intro r r' h h'
    cases r with
    | short =>
      cases r' with
      | short => rfl
      | body f => exact absurd h (Nat.not_lt.mpr h'.1)
      | unknown k => exact absurd h (Nat.not_lt.mpr h'.1)
    | body f =>
      cases r' with
      | short => exact absurd h' (Nat.not_lt.mpr h.1)
      | body f' => exact Res.err.inj ((lift h.2).symm.trans (lift h'.2))
      | unknown k =>
        obtain ⟨-, -, qs, hq, -⟩ := h'
        obtain ⟨ps, hp, -⟩ := seq_parse hq
        rw [lift h.2] at hp; cases hp
    | unknown k =>
      cases r' with
      | short => exact absurd h' (Nat.not_lt.mpr h.1)
      | body f =>
        obtain ⟨-, -, qs, hq, -⟩ := h
        obtain ⟨ps, hp, -⟩ := seq_parse hq
        rw [lift h'.2] at hp; cases hp
      | unknown k' =>
        have : k = k' := by
          have h1 := h.2.1
          rw [← h'.2.1] at h1
          revert h1
          cases k <;> cases k' <;> first | (intro _; rfl) | (intro h; exact absurd h (by decide))
        rw [this]
  rcases c20_parse b with ⟨m, hm⟩ | ⟨e, he, -⟩
  · exfalso
    cases r with
    | short => rw [(c20_short b).mpr hr] at hm; cases hm
    | body f =>
      obtain ⟨e, he⟩ := c23_bad_body b (fun qs hq => by
        obtain ⟨ps, hp, -⟩ := seq_parse hq
        rw [(c98_params _ _).mpr ⟨f, hr.2, rfl⟩] at hp; cases hp)
      rw [he] at hm; cases hm
    | unknown k =>
      obtain ⟨hb, hk, qs, hq, q, hq', hn⟩ := hr
      obtain ⟨n, hn', h⟩ := (c23_accept_iff b hb k hk qs hq).mp ⟨m, hm⟩ q hq'
      exact hn n hn' h
  · obtain ⟨r', hr', rfl⟩ := dir he
    rw [he, uniq r r' hr hr']

/-- C98: `messages.Parse` fails exactly for the reasons of `Refusal`. The error can be recognised with `errors.Is`, and its text says the reason. -/
theorem c98_parse (b : Bytes) : (∃ e, M3UA.parse b = .err e) ↔ ∃ r : Refusal, r.Of b := by
  constructor
  · rintro ⟨e, h⟩
    obtain ⟨r, hr, -⟩ := (parse_refused b e).mp h
    exact ⟨r, hr⟩
  · rintro ⟨r, hr⟩
    exact ⟨_, (parse_refused b _).mpr ⟨r, hr, rfl⟩⟩

/-- C98: the error for each reason. -/
theorem c98_error (b : Bytes) (r : Refusal) (h : r.Of b) : ∃ e, M3UA.parse b = .err e ∧ e.root = r.sentinel ∧ e.text = r.text := by
  refine ⟨_, (parse_refused b _).mpr ⟨r, h, rfl⟩, ?_⟩
  cases r with
  | short => exact ⟨rfl, rfl⟩
  | body f => cases f <;> exact ⟨rfl, rfl⟩
  | unknown k => cases k <;> exact ⟨rfl, by decide⟩

/-- C98: there is only one reason to refuse a datagram. -/
theorem c98_unique (b : Bytes) (r r' : Refusal) (h : r.Of b) (h' : r'.Of b) : r = r' := by
  obtain ⟨e, he, hr, ht⟩ := c98_error b r h
  obtain ⟨e', he', hr', ht'⟩ := c98_error b r' h'
  rw [he] at he'
  cases he'
  rw [hr] at hr'
  cases r with
  | short => cases r' with
    | short => rfl
    | body f => cases f <;> cases hr'
    | unknown k => cases hr'
  | body f => cases r' with
    | short => cases f <;> cases hr'
    | body f' => cases f <;> cases f' <;> first | rfl | cases hr'
    | unknown k => cases f <;> cases hr'
  | unknown k => cases r' with
    | short => cases hr'
    | body f => cases f <;> cases hr'
    | unknown k' =>
      have h1 := h.2.1
      rw [← h'.2.1] at h1
      congr 1
      revert h1
      cases k <;> cases k' <;> first | (intro _; rfl) | (intro h; exact absurd h (by decide))

-- DUNA with an Info String and a Traffic Mode Type
example : Refusal.Of (.unknown .duna) [1, 0, 2, 1, 0, 0, 0, 24, 0, 4, 0, 5, 0x61, 0, 0, 0, 0, 0x0b, 0, 8, 0, 0, 0, 1] :=
  ⟨by decide, by decide, [(4, [0x61]), (0x0b, [0, 0, 0, 1])],
    .cons 4 [0x61] [0, 0, 0] _ _ (by decide) (by decide) (by decide) (.cons 0x0b [0, 0, 0, 1] [] [] [] (by decide) (by decide) (by decide) .nil),
    _, List.mem_cons_of_mem _ List.mem_cons_self, by decide⟩

end M3
