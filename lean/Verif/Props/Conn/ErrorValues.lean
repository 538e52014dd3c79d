import Verif.Model.Conn.Errors
import Verif.Lemmas.Strings
import Verif.Props.Names

/- How errors can be told apart: C99. -/

set_option autoImplicit false
set_option linter.unusedSimpArgs false

namespace M3.Spec

open M3.Conn

/-- What the text of an error says. -/
inductive Says where
  | var (v : ErrVar)
  | codec (e : Err)
  | version (n : Nat)
  | cls (name : String)
  | unsupported (k : Option Kind)
  | unexpected (k : Option Kind)
  | stream (n : Nat)
  deriving DecidableEq

/-- Errors of this module that wrap nothing, and what they are about. -/
def says : GoErr → Option Says
  | .var v => some (.var v)
  | .codec (.wrapped _ _) => none
  | .codec e => some (.codec e)
  | .invalidVersion v => some (.version v.toNat)
  | .unsupportedClass m => some (.cls m.messageClassName)
  | .unsupportedMessage m => some (.unsupported m.kind)
  | .unexpectedMessage m => some (.unexpected m.kind)
  | .invalidStream id => some (.stream id.toNat)
  | .other _ => none
  | .wrap _ _ => none

/-- What an error wraps in the end. -/
def innermost : GoErr → GoErr
  | .wrap _ e => innermost e
  | e => e

/-- The error of the model that a variable of `errors.go` is. (`Dial` and `Accept` return the other two.) -/
def ofVar : ErrVar → Option CErr
  | .sctpNotAlive => some .sctpNotAlive
  | .invalidState => some .invalidState
  | .notEstablished => some .notEstablished
  | .heartbeatExpired => some .heartbeatExpired
  | .failedToPeelOff => some .failedToPeelOff
  | .failedToWriteSignal => some .failedToWriteSignal
  | .aspIDRequired => some .aspIDRequired
  | .failedToEstablish => none
  | .timeout => none

end M3.Spec

namespace M3.Conn

open Spec

/-- C99: the model's errors are treated as the Go values they stand for: the type assertions and the calls of `errors.As` and `errors.Is` in
`handleErrors` lead to the same reply. -/
theorem c99_agree (E : Env) {c : CErr} {e : GoErr} (h : StandsFor c e) : e.reply E = errorReply E c := by
  cases h with
  | unsupportedClass m =>
    simp only [GoErr.reply, GoErr.unsupportedReply, errorReply, first40Octets]
    cases m.marshalBinary with
    | ok p => by_cases hl : p.2.length < 40 <;> simp only [hl, if_true, if_false] <;> rfl
    | err _ => rfl
    | panic => exact congrArg (Prog.op .crash) (funext nofun)
    | diverge => exact congrArg (Prog.op .crash) (funext nofun)
  | unsupportedMessage m =>
    simp only [GoErr.reply, GoErr.unsupportedReply, errorReply, first40Octets]
    cases m.marshalBinary with
    | ok p => by_cases hl : p.2.length < 40 <;> simp only [hl, if_true, if_false] <;> rfl
    | err _ => rfl
    | panic => exact congrArg (Prog.op .crash) (funext nofun)
    | diverge => exact congrArg (Prog.op .crash) (funext nofun)
  | _ => rfl

example : StandsFor .sctp (.wrap "failed to write M3UA" (.other "broken pipe")) := .sctpSignal _

/-- C99: `handleErrors` looks into wrapped errors, except for two types: a wrapped `UnsupportedClassError` or `UnsupportedMessageError` is not
answered. (The library does not wrap them, see `StandsFor`.) -/
theorem c99_wrapped (E : Env) (pre : String) (e : GoErr) : (GoErr.wrap pre e).reply E =
    match innermost e with
    | .unsupportedClass _ => .ret none
    | .unsupportedMessage _ => .ret none
    | x => x.reply E := by
  have key : ∀ e, (GoErr.wrap pre e).asInvalidVersion = (innermost e).asInvalidVersion ∧
      (GoErr.wrap pre e).asUnexpectedMessage = (innermost e).asUnexpectedMessage ∧
      (GoErr.wrap pre e).asInvalidStream = (innermost e).asInvalidStream ∧
      (GoErr.wrap pre e).is .aspIDRequired = (innermost e).is .aspIDRequired ∧ ∀ p x, innermost e ≠ .wrap p x := by
    intro e
    induction e with
    | wrap p e ih => exact ih
    | _ => exact ⟨rfl, rfl, rfl, rfl, by intro p x h; cases h⟩
  obtain ⟨h1, h2, h3, h4, h5⟩ := key e
  generalize innermost e = x at h1 h2 h3 h4 h5
  cases x with
  | wrap p x => exact absurd rfl (h5 p x)
  | var v => cases v <;> simp only [GoErr.reply, h1, h2, h3, h4] <;> rfl
  | _ => simp only [GoErr.reply, h1, h2, h3, h4] <;> rfl

example (E : Env) : (GoErr.wrap "a" (.wrap "b" (.invalidVersion 2))).reply E = (GoErr.invalidVersion 2).reply E := c99_wrapped E _ _

/-- C99: `errors.Is` with a variable of package `m3ua` is true exactly for the error it names. -/
theorem c99_is {c : CErr} {e : GoErr} (h : StandsFor c e) (v : ErrVar) : e.is v = true ↔ ofVar v = some c := by
  cases h <;> cases v <;> simp [GoErr.is, ofVar]

example : StandsFor .heartbeatExpired (.var .heartbeatExpired) ∧ ofVar .heartbeatExpired = some .heartbeatExpired := ⟨.heartbeatExpired, rfl⟩

/-- Class and name of a kind of message. -/
def kindNames (k : Option Kind) : String × String := match k with
  | some k => called k.cls k.typ
  | none => ("Unknown", "Unknown")

/-- The end of a text about a kind of message. -/
def ofKind (k : Option Kind) : String := (kindNames k).1 ++ ", type: " ++ (kindNames k).2

theorem ofKind_inj : ∀ {k k' : Option Kind}, ofKind k = ofKind k' → k = k' := by
  have h : ∀ k ∈ none :: Kind.all.map some, ∀ k' ∈ none :: Kind.all.map some, ofKind k = ofKind k' → k = k' := by decide +kernel
  have all : ∀ k : Option Kind, k ∈ none :: Kind.all.map some := by
    rintro (_ | k)
    · decide
    · cases k <;> decide
  exact fun {k k'} => h k (all k) k' (all k')

/-- The text that says `s`, in two sayParts: the first depends on the constructor only, unless the second is empty. -/
def sayParts : Says → String × String
  | .var v => (v.text, "")
  | .codec e => (e.text, "")
  | .version n => ("invalid version: ", fmtD n)
  | .cls c => ("message class unsupported. class: ", c)
  | .unsupported k => ("message unsupported. class: ", ofKind k)
  | .unexpected k => ("unexpected message. class: ", ofKind k)
  | .stream n => ("invalid SCTP Stream ID: ", fmtD n)

theorem parts_text {e : GoErr} {s : Says} (h : says e = some s) : e.text = (sayParts s).1 ++ (sayParts s).2 := by
  have names : ∀ m : M3UA, m.messageClassName = (kindNames m.kind).1 ∧ m.messageTypeName = (kindNames m.kind).2 := fun m =>
    Prod.mk.inj (c80_names m)
  cases e with
  | var v => cases h; exact String.append_empty.symm
  | codec x => cases x <;> cases h <;> exact String.append_empty.symm
  | unsupportedMessage m =>
    obtain rfl := Option.some.inj (show some (Says.unsupported m.kind) = some s from h)
    show "message unsupported. class: " ++ m.messageClassName ++ ", type: " ++ m.messageTypeName = "message unsupported. class: " ++ ofKind m.kind
    rw [(names m).1, (names m).2, ofKind]
    generalize (kindNames m.kind) = p
    simp only [String.append_assoc]
  | unexpectedMessage m =>
    obtain rfl := Option.some.inj (show some (Says.unexpected m.kind) = some s from h)
    show "unexpected message. class: " ++ m.messageClassName ++ ", type: " ++ m.messageTypeName = "unexpected message. class: " ++ ofKind m.kind
    rw [(names m).1, (names m).2, ofKind]
    generalize (kindNames m.kind) = p
    simp only [String.append_assoc]
  | _ => cases h <;> rfl

/-- Not a wrapping error. -/
def wrapsNot : Says → Bool
  | .codec (.wrapped _ _) => false
  | _ => true

theorem says_plain {e : GoErr} {s : Says} (h : says e = some s) : wrapsNot s = true := by
  cases e with
  | codec x => cases x <;> cases h <;> rfl
  | _ => cases h <;> rfl

/-- How the first part begins. -/
def textHead (s : Says) : List Char := (sayParts s).1.toList.take 9

theorem nine_chars (s : Says) (hs : wrapsNot s = true) : 9 ≤ (sayParts s).1.toList.length := by
  cases s with
  | var v => cases v <;> decide
  | codec e => cases e <;> first | (cases hs; done) | decide
  | version => exact (by decide : 9 ≤ "invalid version: ".toList.length)
  | cls => exact (by decide : 9 ≤ "message class unsupported. class: ".toList.length)
  | unsupported => exact (by decide : 9 ≤ "message unsupported. class: ".toList.length)
  | unexpected => exact (by decide : 9 ≤ "unexpected message. class: ".toList.length)
  | stream => exact (by decide : 9 ≤ "invalid SCTP Stream ID: ".toList.length)

theorem textHead_eq {s s' : Says} (hs : wrapsNot s = true) (hs' : wrapsNot s' = true)
    (h : (sayParts s).1 ++ (sayParts s).2 = (sayParts s').1 ++ (sayParts s').2) : textHead s = textHead s' := by
  have h := congrArg (fun t => t.toList.take 9) h
  simp only [String.toList_append] at h
  rwa [List.take_append_of_le_length (nine_chars s hs), List.take_append_of_le_length (nine_chars s' hs')] at h

/-- The variables, the codec's errors and one representative for each other form. -/
def sayForms : List Says :=
  [.sctpNotAlive, .invalidState, .notEstablished, .failedToEstablish, .timeout, .heartbeatExpired, .failedToPeelOff, .failedToWriteSignal,
    .aspIDRequired].map Says.var ++
  [.paramInvalidType, .paramInvalidLength, .paramTooShortToMarshal, .paramTooShortToParse, .msgTooShortToMarshal, .msgTooShortToParse,
    .msgInvalidParameter].map Says.codec ++
  [.version 0, .cls "", .unsupported none, .unexpected none, .stream 0]

/-- The representative of a form. -/
def sayForm : Says → Says
  | .version _ => .version 0
  | .cls _ => .cls ""
  | .unsupported _ => .unsupported none
  | .unexpected _ => .unexpected none
  | .stream _ => .stream 0
  | s => s

/-- Nothing follows. -/
def noTail : Says → Bool
  | .var _ => true
  | .codec _ => true
  | _ => false

/-- The texts of two forms differ in their first nine characters, or nothing follows. -/
theorem forms_differ : ∀ s ∈ sayForms, ∀ s' ∈ sayForms, s ≠ s' →
    textHead s ≠ textHead s' ∨ (noTail s = true ∧ noTail s' = true ∧ (sayParts s).1 ≠ (sayParts s').1) := by decide +kernel

theorem form_mem (s : Says) (hs : wrapsNot s = true) : sayForm s ∈ sayForms := by
  cases s with
  | var v => cases v <;> decide
  | codec e => cases e <;> first | (cases hs; done) | decide
  | _ => simp [sayForms, sayForm]

theorem parts_form (s : Says) : (sayParts (sayForm s)).1 = (sayParts s).1 := by cases s <;> rfl

theorem parts_inj {s s' : Says} (hs : wrapsNot s = true) (hs' : wrapsNot s' = true)
    (h : (sayParts s).1 ++ (sayParts s).2 = (sayParts s').1 ++ (sayParts s').2) : s = s' := by
  by_cases hf : sayForm s = sayForm s'
  · have h1 : (sayParts s).1 = (sayParts s').1 := by rw [← parts_form, hf, parts_form]
    rw [h1] at h
    have h2 := (String.append_right_inj _).mp h
    cases s <;> cases s' <;> simp only [sayForm, reduceCtorEq, Says.var.injEq, Says.codec.injEq] at hf <;> first | rw [hf] | skip
    · rw [fmtD_inj (congrArg String.toList h2)]
    · exact congrArg Says.cls h2
    · rw [ofKind_inj h2]
    · rw [ofKind_inj h2]
    · rw [fmtD_inj (congrArg String.toList h2)]
  · exfalso
    have ff : ∀ s, noTail (sayForm s) = true → (sayParts s).2 = "" := by
      intro s hf
      cases s <;> first | rfl | cases hf
    rcases forms_differ _ (form_mem s hs) _ (form_mem s' hs') hf with ho | ⟨h1, h2, h3⟩
    · have := textHead_eq hs hs' h
      apply ho
      unfold textHead at this ⊢
      rw [parts_form, parts_form]; exact this
    · rw [parts_form, parts_form] at h3
      rw [ff s h1, ff s' h2, String.append_empty, String.append_empty] at h
      exact h3 h

/-- C99: the texts of two errors of this module that wrap nothing are the same exactly if they say the same: about the same kind of mistake and,
where the text mentions one, the same version, stream, class of message or kind of message. -/
theorem c99_text {e e' : GoErr} {s s' : Says} (h : says e = some s) (h' : says e' = some s') : e.text = e'.text ↔ s = s' := by
  rw [parts_text h, parts_text h']
  exact ⟨parts_inj (says_plain h) (says_plain h'), fun hh => by rw [hh]⟩

/-- Two streams, a version, and the error for a message of an unknown class. -/
example : (GoErr.invalidStream 3).text ≠ (GoErr.invalidStream 4).text ∧ (GoErr.invalidStream 3).text ≠ (GoErr.invalidVersion 3).text ∧
    (GoErr.unexpectedMessage (.heartbeat (Msg.Heartbeat.new none))).text = "unexpected message. class: ASPSM, type: Heartbeat" := by
  refine ⟨?_, ?_, by decide⟩
  · rw [Ne, c99_text rfl rfl]; decide
  · rw [Ne, c99_text rfl rfl]; decide

end M3.Conn
