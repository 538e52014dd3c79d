import Verif.Lemmas.Strings
import Verif.Lemmas.Messages

/- C86: what `String` shows of headers, parameters, payloads and messages. -/

set_option autoImplicit false

namespace M3

/-- C86: what is printed of a header determines the header, all six fields of it. -/
theorem c86_header {a b : Header} (h : a.goString = b.goString) : a = b := readable_header.inj h

/-- C86: what is printed of a parameter determines it, and a nil parameter is told from any other. -/
theorem c86_param {a b : Option Param} (h : paramGoString a = paramGoString b) : a = b := readable_param.inj h

/-- C86: what is printed of the payload that `ReadPD` returns determines it, all seven fields of it. -/
theorem c86_payload {a b : ProtocolDataPayload} (h : a.goString = b.goString) : a = b := readable_payload.inj h

/-- The printed forms of the messages: labels and values in the order of RFC 4666. -/
theorem goString_typed {m : M3UA} {k : Spec.Kind} (hk : m.kind = some k) (ht : ¬ k.terse) :
    m.goString = sprintf ("{Header: " :: m.header.goString ::
      (k.params.flatMap fun n => [", " ++ n.label ++ " ", paramGoString (m.field n)]) ++ ["}"]) := by
  cases m <;> cases hk <;> first | rfl | exact absurd rfl ht

theorem goString_generic (m : Msg.Generic) : (M3UA.generic m).goString =
    sprintf ["{Header: ", m.header.goString, ", Params: ", fmtStrings (m.params.map fun p => paramGoString (some p)), "}"] := rfl

/-- The values of a list of labelled parameters. -/
theorem readable_labelled (g : Spec.PName → Option Param) (g' : Spec.PName → Option Param) :
    ∀ (l : List Spec.PName) (s : String) (x y : List Char) (v v' : Header), 
      (sprintf (s :: v.goString :: (l.flatMap fun n => [", " ++ n.label ++ " ", paramGoString (g n)]) ++ ["}"])).toList ++ x =
      (sprintf (s :: v'.goString :: (l.flatMap fun n => [", " ++ n.label ++ " ", paramGoString (g' n)]) ++ ["}"])).toList ++ y →
      v = v' ∧ (∀ n ∈ l, g n = g' n) := by
  have hl : ∀ s : String, Ends (", " ++ s ++ " ").toList := fun s => by
    rw [String.toList_append, String.toList_append]
    exact Ends.append (Ends.append (by sep))
  have hp : ∀ (l : List Spec.PName) (n : Spec.PName) (s : String) (x y : List Char),
      (sprintf (s :: paramGoString (g n) :: (l.flatMap fun n => [", " ++ n.label ++ " ", paramGoString (g n)]) ++ ["}"])).toList ++ x =
      (sprintf (s :: paramGoString (g' n) :: (l.flatMap fun n => [", " ++ n.label ++ " ", paramGoString (g' n)]) ++ ["}"])).toList ++ y →
      g n = g' n ∧ ∀ n ∈ l, g n = g' n := by
    intro l
    induction l with
    | nil =>
      intro n s x y h
      exact ⟨(cut readable_param h (by sep)).1, by simp⟩
    | cons n' l ih =>
      intro n s x y h
      obtain ⟨h1, h⟩ := cut readable_param (s := ", " ++ n'.label ++ " ") h (hl _)
      obtain ⟨h2, h3⟩ := ih n' _ x y h
      refine ⟨h1, fun m hm => ?_⟩
      rcases List.mem_cons.mp hm with rfl | hm
      · exact h2
      · exact h3 m hm
  intro l s x y v v' h
  cases l with
  | nil => exact ⟨(cut readable_header h (by sep)).1, by simp⟩
  | cons n l =>
    obtain ⟨h1, h⟩ := cut readable_header (s := ", " ++ n.label ++ " ") h (hl _)
    obtain ⟨h2, h3⟩ := hp l n _ x y h
    refine ⟨h1, fun m hm => ?_⟩
    rcases List.mem_cons.mp hm with rfl | hm
    · exact h2
    · exact h3 m hm

/-- C86: what is printed of a message determines its header and all its parameters, given its type: no
two ASP Up messages (say) that differ in a header field, in a parameter, or in that a parameter is
absent, look the same in a log. Excepted are DUNA, DAVA, DAUD, DUPU and DRST. -/
theorem c86_message {a b : M3UA} (hk : a.kind = b.kind) (ht : ∀ k, a.kind = some k → ¬ k.terse)
    (h : a.goString = b.goString) :
    a.header = b.header ∧ (∀ n, a.field n = b.field n) ∧ a.genericParams = b.genericParams := by
  cases hka : a.kind with
  | none =>
    have hkb := hka ▸ hk
    cases a <;> simp [M3UA.kind] at hka
    cases b <;> simp [M3UA.kind] at hkb
    rename_i x y
    rw [goString_generic, goString_generic] at h
    have h : (sprintf ["{Header: ", x.header.goString, ", Params: ", fmtStrings (x.params.map fun p => paramGoString (some p)), "}"]).toList ++ [] =
      (sprintf ["{Header: ", y.header.goString, ", Params: ", fmtStrings (y.params.map fun p => paramGoString (some p)), "}"]).toList ++ [] := by rw [h]
    obtain ⟨h1, h⟩ := cut readable_header h (by sep)
    obtain ⟨h2, _⟩ := cut readable_params h (by sep)
    exact ⟨h1, fun n => rfl, h2⟩
  | some k =>
    have hkb := hka ▸ hk
    rw [goString_typed hka (ht k hka), goString_typed hkb.symm (ht k hka)] at h
    obtain ⟨h1, h2⟩ := readable_labelled a.field b.field k.params "{Header: " [] [] a.header b.header (by rw [h])
    refine ⟨h1, fun n => ?_, ?_⟩
    · by_cases hn : n ∈ k.params
      · exact h2 n hn
      · obtain ⟨M, C, inj, v, _⟩ := exists_view k
        obtain ⟨x, rfl⟩ := v.surj a hka
        obtain ⟨y, rfl⟩ := v.surj b hkb.symm
        rw [v.field_other _ _ hn, v.field_other _ _ hn]
    · cases a <;> cases b <;> first | rfl | (simp [M3UA.kind] at hka hkb; done)

/-- Values after labels, as `sprintf` puts them together. -/
theorem braces_sprintf (l v : String) : ∀ r : List (String × String),
    Spec.braces ((l, v) :: r) = (sprintf (("{" ++ l ++ " ") :: v :: (r.flatMap fun x => [", " ++ x.1 ++ " ", x.2]) ++ ["}"])).toList := by
  have key : ∀ (r : List (String × String)) (l v : String),
      (((((l, v) :: r).map fun f => f.1.toList ++ " ".toList ++ f.2.toList).intersperse ", ".toList).flatten ++ "}".toList) =
      l.toList ++ " ".toList ++ (sprintf (v :: (r.flatMap fun x => [", " ++ x.1 ++ " ", x.2]) ++ ["}"])).toList := by
    intro r
    induction r with
    | nil =>
      intro l v
      simp only [List.map_cons, List.map_nil, List.intersperse_singleton, List.flatten_cons, List.flatten_nil, List.append_nil,
        List.flatMap_nil, List.cons_append, List.nil_append, sprintf_cons]
      rw [sprintf, show "".toList = [] from rfl, List.append_nil]
      generalize "}".toList = z
      generalize " ".toList = w
      simp only [List.append_assoc]
    | cons x r ih =>
      intro l v
      have := ih x.1 x.2
      rw [show ((l, v) :: x :: r).map (fun f => f.1.toList ++ " ".toList ++ f.2.toList) =
        (l.toList ++ " ".toList ++ v.toList) :: (x.1.toList ++ " ".toList ++ x.2.toList) ::
          r.map (fun f => f.1.toList ++ " ".toList ++ f.2.toList) from rfl, List.intersperse_cons_cons]
      rw [show ((x.1, x.2) :: r).map (fun f => f.1.toList ++ " ".toList ++ f.2.toList) =
        (x.1.toList ++ " ".toList ++ x.2.toList) :: r.map (fun f => f.1.toList ++ " ".toList ++ f.2.toList) from rfl] at this
      rw [List.flatten_cons, List.flatten_cons, List.append_assoc, List.append_assoc (", ".toList), this, List.flatMap_cons]
      rw [show (v :: (([", " ++ x.1 ++ " ", x.2]) ++ r.flatMap fun x => [", " ++ x.1 ++ " ", x.2]) ++ ["}"]) =
        v :: (", " ++ x.1 ++ " ") :: (x.2 :: (r.flatMap fun x => [", " ++ x.1 ++ " ", x.2]) ++ ["}"]) from rfl]
      rw [sprintf_cons v, sprintf_cons (", " ++ x.1 ++ " "), String.toList_append, String.toList_append]
      generalize ", ".toList = z
      generalize " ".toList = w
      simp only [List.append_assoc]
  intro r
  rw [Spec.braces, List.append_assoc, key, List.cons_append, List.cons_append, List.cons_append,
    sprintf_cons ("{" ++ l ++ " "), String.toList_append, String.toList_append]
  generalize "{".toList = z
  generalize " ".toList = w
  simp only [List.append_assoc]

/-- C86: a message is printed in braces, as its header and then its parameters in the order of RFC 4666,
each after its name. -/
theorem c86_layout {m : M3UA} {k : Spec.Kind} (hk : m.kind = some k) (ht : ¬ k.terse) :
    m.goString.toList = Spec.braces (("Header:", m.header.goString) ::
      k.params.map fun n => (n.label, paramGoString (m.field n))) := by
  rw [goString_typed hk ht, braces_sprintf, List.flatMap_map]
  rfl

/-- C86: a parameter is printed with its tag and length in decimal and its data in hexadecimal, a nil
one as nothing. -/
theorem c86_param_layout (p : Param) :
    paramGoString none = "" ∧ ∃ d : String, Spec.unhex d.toList = some p.data ∧
      (paramGoString (some p)).toList = Spec.braces
        [("Tag:", toString p.tag.toNat), ("Length:", toString p.length.toNat), ("Data:", d)] := by
  refine ⟨rfl, fmtX p.data, ?_, ?_⟩
  · exact unhex_fmtX _
  · rw [braces_sprintf]; rfl

/-- C86: a header is printed with all its fields: the numbers in decimal (the reserved octet in
hexadecimal), the payload in hexadecimal. -/
theorem c86_header_layout (h : Header) :
    ∃ r d : String, Spec.unhex d.toList = some h.payload ∧ r.toList = "0x".toList ++ Nat.toDigits 16 h.reserved.toNat ∧
      h.goString.toList = Spec.braces
        [("Version:", toString h.version.toNat), ("Reserved:", r), ("Class:", toString h.cls.toNat),
         ("Type:", toString h.typ.toNat), ("Length:", toString h.length.toNat), ("Payload:", d)] := by
  refine ⟨fmtSharpX h.reserved.toNat, fmtX h.payload, unhex_fmtX _, ?_, ?_⟩
  · simp only [fmtSharpX, String.toList_append, String.toList_ofList]
  · rw [braces_sprintf]; rfl

/-- C86: a payload is printed with all its fields, each after its name. -/
theorem c86_payload_layout (p : ProtocolDataPayload) :
    ∃ d : String, Spec.unhex d.toList = some p.data ∧
      p.goString.toList = Spec.braces
        [("OriginatingPointCode:", toString p.originatingPointCode.toNat),
         ("DestinationPointCode:", toString p.destinationPointCode.toNat),
         ("ServiceIndicator:", toString p.serviceIndicator.toNat), ("NetworkIndicator:", toString p.networkIndicator.toNat),
         ("MessagePriority:", toString p.messagePriority.toNat),
         ("SignalingLinkSelection:", toString p.signalingLinkSelection.toNat), ("Data:", d)] := by
  refine ⟨fmtX p.data, unhex_fmtX _, ?_⟩
  rw [braces_sprintf]; rfl

/-- C86: DUNA, DAVA, DAUD, DUPU and DRST messages are printed as their header only. -/
theorem c86_terse {m : M3UA} {k : Spec.Kind} (hk : m.kind = some k) (ht : k.terse) : m.goString = m.header.goString := by
  cases m <;> cases hk <;> first | rfl | cases ht

/-- C86: so two DUNA messages for different destinations can look the same in a log. -/
theorem c86_terse_blind : ∃ a b : M3UA, a.Constructed ∧ b.Constructed ∧ a.kind = some .duna ∧ b.kind = some .duna ∧
    a.field .affectedPointCode ≠ b.field .affectedPointCode ∧ a.goString = b.goString :=
  ⟨.duna (Msg.DestinationUnavailable.new none none (some (Param.new 0x12 [0, 0, 0, 1])) none),
   .duna (Msg.DestinationUnavailable.new none none (some (Param.new 0x12 [0, 0, 0, 2])) none),
   .duna .., .duna .., rfl, rfl, by decide +kernel, congrArg Header.goString (by decide +kernel)⟩

/-- For `c86_layout` and `c86_header_layout`: An ASP Up message as printed. -/
example : (M3UA.aspUp (Msg.AspUp.new (some (Param.new 0x11 [0, 0, 0, 42])) none)).goString =
    "{Header: {Version: 1, Reserved: 0x0, Class: 3, Type: 1, Length: 16, Payload: }, AspIdentifier: {Tag: 17, Length: 8, Data: 0000002a}, InfoString: }" := by
  decide +kernel

/-- Hypotheses of `c86_message` are met by two different messages. -/
example : (M3UA.aspUp (Msg.AspUp.new none none)).kind = (M3UA.aspUp (Msg.AspUp.new (some (Param.new 0x11 [1])) none)).kind ∧
    (∀ k, (M3UA.aspUp (Msg.AspUp.new none none)).kind = some k → ¬ k.terse) ∧
    (M3UA.aspUp (Msg.AspUp.new none none)).goString ≠ (M3UA.aspUp (Msg.AspUp.new (some (Param.new 0x11 [1])) none)).goString :=
  ⟨rfl, fun k hk => by cases hk; decide, by decide +kernel⟩

end M3
