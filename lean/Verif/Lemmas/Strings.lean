import Verif.Model.Strings
import Verif.Spec.Display

/- Printed forms can be read back: what is printed, followed by a separator, determines the value. -/

set_option autoImplicit false

namespace M3

/-- Starts with a character that ends a value. -/
def Ends (x : List Char) : Prop := ∃ c t, x = c :: t ∧ c ∈ [',', '}', ' ', ']']

/-- What is printed before a separator determines the value. -/
def Readable {α : Type} (f : α → List Char) : Prop :=
  ∀ a b x y, Ends x → Ends y → f a ++ x = f b ++ y → a = b ∧ x = y

/-- Lists of characters other than separators are determined by what they start. -/
theorem span_eq : ∀ (u v x y : List Char), (∀ c ∈ u, c ∉ [',', '}', ' ', ']']) → (∀ c ∈ v, c ∉ [',', '}', ' ', ']']) →
    Ends x → Ends y → u ++ x = v ++ y → u = v ∧ x = y
  | [], [], _, _, _, _, _, _, h => ⟨rfl, h⟩
  | [], d :: v, _, _, _, hv, ⟨c, t, hx, hc⟩, _, h => by
    rw [List.nil_append, hx, List.cons_append] at h
    injection h with h1 _
    subst h1
    exact absurd hc (hv c (by simp))
  | c :: u, [], _, _, hu, _, _, ⟨d, t, hy, hd⟩, h => by
    rw [List.nil_append, hy, List.cons_append] at h
    injection h with h1 _
    subst h1
    exact absurd hd (hu c (by simp))
  | c :: u, d :: v, x, y, hu, hv, hx, hy, h => by
    rw [List.cons_append, List.cons_append] at h
    injection h with h1 h2
    have := span_eq u v x y (fun c hc => hu c (by simp [hc])) (fun c hc => hv c (by simp [hc])) hx hy h2
    exact ⟨by rw [h1, this.1], this.2⟩

theorem readable_of_inj {α : Type} {f : α → List Char} (hi : ∀ a b, f a = f b → a = b)
    (hs : ∀ a, ∀ c ∈ f a, c ∉ [',', '}', ' ', ']']) : Readable f := by
  intro a b x y hx hy h
  obtain ⟨h1, h2⟩ := span_eq _ _ _ _ (hs a) (hs b) hx hy h
  exact ⟨hi _ _ h1, h2⟩

theorem Readable.comp {α β : Type} {f : α → List Char} {g : β → α} (h : Readable f) (hg : ∀ a b, g a = g b → a = b) :
    Readable fun b => f (g b) := fun _ _ x y hx hy e =>
  let ⟨h1, h2⟩ := h _ _ x y hx hy e
  ⟨hg _ _ h1, h2⟩

theorem digit_not_sep {c : Char} (h : c.isDigit) : c ∉ [',', '}', ' ', ']'] := by
  intro hc
  simp only [List.mem_cons, List.not_mem_nil, or_false] at hc
  rcases hc with rfl | rfl | rfl | rfl <;> revert h <;> decide

theorem hex_not_sep (n : Nat) (h : n < 16) : n.digitChar ∉ [',', '}', ' ', ']'] := by
  have : ∀ k : Fin 16, k.val.digitChar ∉ [',', '}', ' ', ']'] := by decide
  exact this ⟨n, h⟩

theorem hex_inj (n m : Nat) (h : n < 16) (h' : m < 16) (e : n.digitChar = m.digitChar) : n = m := by
  have : ∀ k l : Fin 16, k.val.digitChar = l.val.digitChar → k = l := by decide
  exact congrArg Fin.val (this ⟨n, h⟩ ⟨m, h'⟩ e)

theorem fmtD_inj {a b : Nat} (h : (fmtD a).toList = (fmtD b).toList) : a = b := by
  simp only [fmtD, String.toList_ofList] at h
  rw [← Nat.ofDigitChars_ten_toDigits (n := a), h, Nat.ofDigitChars_ten_toDigits]

theorem readable_fmtD : Readable fun n => (fmtD n).toList :=
  readable_of_inj (fun _ _ => fmtD_inj) fun a c hc => by
    simp only [fmtD, String.toList_ofList] at hc
    exact digit_not_sep (Nat.isDigit_of_mem_toDigits (by decide) (by decide) hc)

theorem readable_u8 : Readable fun n : UInt8 => (fmtD n.toNat).toList := readable_fmtD.comp (g := UInt8.toNat) fun _ _ => UInt8.toNat.inj
theorem readable_u16 : Readable fun n : UInt16 => (fmtD n.toNat).toList := readable_fmtD.comp (g := UInt16.toNat) fun _ _ => UInt16.toNat.inj
theorem readable_u32 : Readable fun n : UInt32 => (fmtD n.toNat).toList := readable_fmtD.comp (g := UInt32.toNat) fun _ _ => UInt32.toNat.inj

theorem hex_digits (n : Nat) (h : n < 256) : Nat.toDigits 16 n = if n < 16 then [n.digitChar]
    else [(n / 16).digitChar, (n % 16).digitChar] := by
  split
  · exact Nat.toDigits_of_lt_base (by assumption)
  · rw [Nat.toDigits_of_base_le (by decide) (by omega), Nat.toDigits_of_lt_base (by omega)]
    rfl

theorem readable_fmtSharpX : Readable fun n : UInt8 => (fmtSharpX n.toNat).toList := by
  refine readable_of_inj (fun a b h => ?_) fun a c hc => ?_
  · simp only [fmtSharpX, String.toList_append, String.toList_ofList, List.append_cancel_left_eq] at h
    have ha := a.toNat_lt
    have hb := b.toNat_lt
    rw [hex_digits _ (by omega), hex_digits _ (by omega)] at h
    apply UInt8.toNat.inj
    split at h <;> split at h <;> simp only [List.cons.injEq, and_true, reduceCtorEq, and_false] at h
    · exact hex_inj _ _ (by omega) (by omega) h
    · have h1 := hex_inj _ _ (by omega) (by omega) h.1
      have h2 := hex_inj _ _ (by omega) (by omega) h.2
      omega
  · have ha := a.toNat_lt
    simp only [fmtSharpX, String.toList_append, String.toList_ofList, List.mem_append] at hc
    rcases hc with hc | hc
    · have : ∀ c ∈ "0x".toList, c ∉ [',', '}', ' ', ']'] := by simp
      exact this c hc
    · rw [hex_digits _ (by omega)] at hc
      split at hc <;> simp only [List.mem_cons, List.not_mem_nil, or_false] at hc
      · rw [hc]; exact hex_not_sep _ (by omega)
      · rcases hc with rfl | rfl <;> exact hex_not_sep _ (by omega)

theorem fmtX_inj : ∀ a b : Bytes, (fmtX a).toList = (fmtX b).toList → a = b := by
  intro a
  induction a with
  | nil => intro b; cases b <;> simp [fmtX]
  | cons x a ih =>
    intro b h
    cases b with
    | nil => simp [fmtX] at h
    | cons y b =>
      simp only [fmtX, String.toList_ofList, List.flatMap_cons, List.cons_append, List.nil_append, List.cons.injEq] at h
      have hx := x.toNat_lt
      have hy := y.toNat_lt
      have h1 := hex_inj _ _ (by omega) (by omega) h.1
      have h2 := hex_inj _ _ (by omega) (by omega) h.2.1
      have e : x = y := UInt8.toNat.inj (by omega)
      rw [e, ih b (by simpa only [fmtX, String.toList_ofList] using h.2.2)]

theorem readable_fmtX : Readable fun b => (fmtX b).toList :=
  readable_of_inj fmtX_inj fun a c hc => by
    simp only [fmtX, String.toList_ofList, List.mem_flatMap, List.mem_cons, List.not_mem_nil, or_false] at hc
    obtain ⟨x, _, hc⟩ := hc
    have hx := x.toNat_lt
    rcases hc with rfl | rfl <;> exact hex_not_sep _ (by omega)

theorem Ends.append {l x : List Char} (h : Ends l) : Ends (l ++ x) :=
  let ⟨c, t, e, hc⟩ := h
  ⟨c, t ++ x, by rw [e]; rfl, hc⟩

theorem sprintf_cons (s : String) (l : List String) : (sprintf (s :: l)).toList = s.toList ++ (sprintf l).toList := by
  rw [sprintf, String.toList_append]

/-- One labelled value is read. -/
theorem cut {α : Type} {f : α → String} (hf : Readable fun a => (f a).toList) {l s : String} {r r' : List String}
    {x y : List Char} {a b : α} (h : (sprintf (l :: f a :: s :: r)).toList ++ x = (sprintf (l :: f b :: s :: r')).toList ++ y)
    (hs : Ends s.toList) : a = b ∧ (sprintf (s :: r)).toList ++ x = (sprintf (s :: r')).toList ++ y := by
  have e : ∀ r : List String, Ends ((sprintf (s :: r)).toList ++ x) ∧ Ends ((sprintf (s :: r)).toList ++ y) := fun r => by
    rw [sprintf_cons]
    exact ⟨hs.append.append, hs.append.append⟩
  rw [sprintf_cons, sprintf_cons, sprintf_cons l, sprintf_cons (f b), List.append_assoc, List.append_assoc, List.append_assoc,
    List.append_assoc] at h
  exact hf _ _ _ _ (e r).1 (e r').2 (List.append_cancel_left h)

/-- Proves that a literal starts with a separator. -/
macro "sep" : tactic => `(tactic| (simp [Ends]; done))

theorem readable_header : Readable fun h : Header => h.goString.toList := by
  intro a b x y hx hy h
  simp only [Header.goString] at h
  obtain ⟨h1, h⟩ := cut readable_u8 h (by sep)
  obtain ⟨h2, h⟩ := cut readable_fmtSharpX h (by sep)
  obtain ⟨h3, h⟩ := cut readable_u8 h (by sep)
  obtain ⟨h4, h⟩ := cut readable_u8 h (by sep)
  obtain ⟨h5, h⟩ := cut readable_u32 h (by sep)
  obtain ⟨h6, h⟩ := cut readable_fmtX h (by sep)
  refine ⟨?_, List.append_cancel_left h⟩
  cases a; cases b
  rw [Header.mk.injEq]
  exact ⟨h1, h2, h3, h4, h5, h6⟩

theorem readable_param : Readable fun p : Option Param => (paramGoString p).toList := by
  intro a b x y hx hy h
  have hb : ∀ (l : List String) (s : List Char), ¬ Ends ((sprintf ("{Tag: " :: l)).toList ++ s) := by
    rintro l s ⟨c, t, h, hc⟩
    rw [sprintf_cons] at h
    simp at h
    rw [← h.1] at hc
    revert hc; decide
  cases a with
  | none => cases b with
    | none => exact ⟨rfl, h⟩
    | some q =>
      simp only [paramGoString] at h
      rw [show "".toList = [] from rfl, List.nil_append] at h
      rw [h] at hx
      exact absurd hx (hb _ _)
  | some p => cases b with
    | none =>
      simp only [paramGoString] at h
      rw [show "".toList = [] from rfl, List.nil_append] at h
      rw [← h] at hy
      exact absurd hy (hb _ _)
    | some q =>
      simp only [paramGoString] at h
      obtain ⟨h1, h⟩ := cut readable_u16 h (by sep)
      obtain ⟨h2, h⟩ := cut readable_u16 h (by sep)
      obtain ⟨h3, h⟩ := cut readable_fmtX h (by sep)
      refine ⟨?_, List.append_cancel_left h⟩
      cases p; cases q
      rw [Option.some.injEq, Param.mk.injEq]
      exact ⟨h1, h2, h3⟩

theorem readable_payload : Readable fun p : ProtocolDataPayload => p.goString.toList := by
  intro a b x y hx hy h
  simp only [ProtocolDataPayload.goString] at h
  obtain ⟨h1, h⟩ := cut readable_u32 h (by sep)
  obtain ⟨h2, h⟩ := cut readable_u32 h (by sep)
  obtain ⟨h3, h⟩ := cut readable_u8 h (by sep)
  obtain ⟨h4, h⟩ := cut readable_u8 h (by sep)
  obtain ⟨h5, h⟩ := cut readable_u8 h (by sep)
  obtain ⟨h6, h⟩ := cut readable_u8 h (by sep)
  obtain ⟨h7, h⟩ := cut readable_fmtX h (by sep)
  refine ⟨?_, List.append_cancel_left h⟩
  cases a; cases b
  rw [ProtocolDataPayload.mk.injEq]
  exact ⟨h1, h2, h3, h4, h5, h6, h7⟩

/-- What is printed on its own determines the value. -/
theorem Readable.inj {α : Type} {f : α → String} (h : Readable fun a => (f a).toList) {a b : α} (e : f a = f b) : a = b :=
  (h a b ['}'] ['}'] (by sep) (by sep) (by show _ ++ _ = _ ++ _; dsimp only; rw [e])).1

/-- A list of parameters is read. -/
theorem readable_params : Readable fun l : List Param => (fmtStrings (l.map fun p => paramGoString (some p))).toList := by
  have key : ∀ (l k : List Param) (x y : List Char), 
      ((l.map fun p => (paramGoString (some p)).toList).intersperse [' ']).flatten ++ (']' :: x) =
      ((k.map fun p => (paramGoString (some p)).toList).intersperse [' ']).flatten ++ (']' :: y) → l = k ∧ x = y := by
    have hd : ∀ p, ∃ t, (paramGoString (some p)).toList = '{' :: t := fun p => by
      refine ⟨((paramGoString (some p)).toList).tail, ?_⟩
      rw [paramGoString, sprintf_cons]; simp
    intro l
    induction l with
    | nil =>
      intro k x y h
      cases k with
      | nil => simp at h; exact ⟨rfl, h⟩
      | cons q k =>
        obtain ⟨t, ht⟩ := hd q
        exfalso
        cases k <;> simp [ht] at h
    | cons p l ih =>
      intro k x y h
      cases k with
      | nil =>
        obtain ⟨t, ht⟩ := hd p
        exfalso
        cases l <;> simp [ht] at h
      | cons q k =>
        cases l with
        | nil =>
          cases k with
          | nil =>
            simp only [List.map_cons, List.map_nil, List.intersperse_singleton, List.flatten_cons, List.flatten_nil, List.append_nil] at h
            obtain ⟨h1, h2⟩ := readable_param _ _ _ _ (by sep) (by sep) h
            simp_all
          | cons q' k =>
            exfalso
            simp only [List.map_cons, List.map_nil, List.intersperse_singleton, List.intersperse_cons_cons, List.flatten_cons, List.flatten_nil, List.append_nil, List.append_assoc] at h
            obtain ⟨h1, h2⟩ := readable_param _ _ _ _ (by sep) (by sep) h
            simp at h2
        | cons p' l =>
          cases k with
          | nil =>
            exfalso
            simp only [List.map_cons, List.map_nil, List.intersperse_singleton, List.intersperse_cons_cons, List.flatten_cons, List.flatten_nil, List.append_nil, List.append_assoc] at h
            obtain ⟨h1, h2⟩ := readable_param _ _ _ _ (by sep) (by sep) h
            simp at h2
          | cons q' k =>
            simp only [List.map_cons, List.intersperse_cons_cons, List.flatten_cons, List.append_assoc] at h
            obtain ⟨h1, h2⟩ := readable_param _ _ _ _ (by sep) (by sep) h
            have h3 := ih (q' :: k) x y (by
              simpa only [List.map_cons, List.cons_append, List.nil_append, List.cons.injEq, true_and] using h2)
            simp_all
  intro a b x y hx hy h
  simp only [fmtStrings, String.toList_append, String.toList_ofList, List.append_assoc, List.map_map] at h
  exact key a b x y (by
    have := List.append_cancel_left h
    simpa [Function.comp_def] using this)

theorem hexDigit_char (n : Nat) (h : n < 16) : Spec.hexDigit n.digitChar = some n := by
  have : ∀ k : Fin 16, Spec.hexDigit k.val.digitChar = some k.val := by decide +kernel
  exact this ⟨n, h⟩

/-- The data can be read off the hexadecimal digits. -/
theorem unhex_fmtX (b : Bytes) : Spec.unhex (fmtX b).toList = some b := by
  induction b with
  | nil => simp [fmtX, Spec.unhex]
  | cons x b ih =>
    have hx := x.toNat_lt
    simp only [fmtX, String.toList_ofList] at ih
    simp only [fmtX, String.toList_ofList, List.flatMap_cons, List.cons_append, List.nil_append, Spec.unhex]
    rw [hexDigit_char _ (by omega), hexDigit_char _ (by omega), ih]
    simp only [Option.some.injEq, List.cons.injEq, and_true]
    rw [show 16 * (x.toNat / 16) + x.toNat % 16 = x.toNat by omega, UInt8.ofNat_toNat]

end M3
