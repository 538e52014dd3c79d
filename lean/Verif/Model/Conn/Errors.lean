import Verif.Model.Errors
import Verif.Model.Strings
import Verif.Model.Conn.Funcs

/- The errors of package `m3ua` as Go values: what they print, what they wrap, and how `handleErrors` tells them apart. In the rest of the model errors are
values of `CErr`, without wrapping. -/

set_option autoImplicit false

namespace M3.Conn

/-- Variables made with `errors.New`, `errors.go:16-29`. -/
inductive ErrVar where
  | sctpNotAlive
  | invalidState
  | notEstablished
  | failedToEstablish
  | timeout
  | heartbeatExpired
  | failedToPeelOff
  | failedToWriteSignal
  | aspIDRequired
  deriving DecidableEq, Repr

/-- The texts given to `errors.New`, `errors.go:16-29`. -/
def ErrVar.text : ErrVar → String
  | .sctpNotAlive => "SCTP is no longer alive"
  | .invalidState => "invalid state"
  | .notEstablished => "M3UA Conn not established"
  | .failedToEstablish => "failed to establish M3UA Conn"
  | .timeout => "timed out"
  | .heartbeatExpired => "heartbeat timer expired"
  | .failedToPeelOff => "failed to peel off Protocol Data"
  | .failedToWriteSignal => "failed to write signal"
  | .aspIDRequired => "ASP Identifier required"

/-- Error values. Two values of an error type of this package (`errors.go:31-132`) are not distinguished if their fields are equal; the code never
compares such pointers. `other` is an error of another package (SCTP, `crypto/rand`), which is assumed not to wrap errors of this one. -/
inductive GoErr where
  | var (v : ErrVar)
  | codec (e : Err)
  | invalidVersion (ver : UInt8)
  | unsupportedClass (m : M3UA)
  | unsupportedMessage (m : M3UA)
  | unexpectedMessage (m : M3UA)
  | invalidStream (id : UInt16)
  | other (text : String)
  /-- `fmt.Errorf(prefix + ": %w", e)` -/
  | wrap (pre : String) (e : GoErr)

namespace GoErr

/-- `Error()`, `errors.go:41-43`, `58-60`, `86-88`, `115-117`, `130-132`. -/
def text : GoErr → String
  | .var v => v.text
  | .codec e => e.text
  | .invalidVersion ver => "invalid version: " ++ fmtD ver.toNat
  | .unsupportedClass m => "message class unsupported. class: " ++ m.messageClassName
  | .unsupportedMessage m => "message unsupported. class: " ++ m.messageClassName ++ ", type: " ++ m.messageTypeName
  | .unexpectedMessage m => "unexpected message. class: " ++ m.messageClassName ++ ", type: " ++ m.messageTypeName
  | .invalidStream id => "invalid SCTP Stream ID: " ++ fmtD id.toNat
  | .other t => t
  | .wrap pre e => pre ++ ": " ++ e.text

/-- `errors.Is(e, v)`. -/
def is (v : ErrVar) : GoErr → Bool
  | .var w => decide (w = v)
  | .wrap _ e => e.is v
  | _ => false

/-- `errors.As(e, &t)` with `t` of type `*InvalidVersionError`. -/
def asInvalidVersion : GoErr → Option UInt8
  | .invalidVersion ver => some ver
  | .wrap _ e => e.asInvalidVersion
  | _ => none

/-- `errors.As(e, &t)` with `t` of type `*UnexpectedMessageError`. -/
def asUnexpectedMessage : GoErr → Option M3UA
  | .unexpectedMessage m => some m
  | .wrap _ e => e.asUnexpectedMessage
  | _ => none

/-- `errors.As(e, &t)` with `t` of type `*InvalidSCTPStreamIDError`. -/
def asInvalidStream : GoErr → Option UInt16
  | .invalidStream id => some id
  | .wrap _ e => e.asInvalidStream
  | _ => none

/-- `if err, ok := e.(*T); ok { res = ... }`, `errors.go:144-150`, `152-158`: `assert` is the type assertion, `code` the error code. -/
def unsupportedReply (assert : GoErr → Option M3UA) (code : UInt32) (e : GoErr) (res : Option M3UA) : Prog (Option M3UA) :=
  match assert e with
  | some m => do
    let d ← first40Octets m
    return some (.error (Msg.Error.new (some (Param.newErrorCode code)) none none none (some (Param.newDiagnosticInformation d))))
  | none => return res

/-- The message that `handleErrors` builds, `errors.go:135-183`, statement by statement: each `if` may replace the value of `res`. For
`UnsupportedClassError` and `UnsupportedMessageError` it asserts the type of `e` itself, for the others it looks into what `e` wraps. -/
def reply (E : Env) (e : GoErr) : Prog (Option M3UA) := do
  -- `errors.go:136-142`
  let res : Option M3UA := none
  let res := if e.asInvalidVersion.isSome then
    some (.error (Msg.Error.new (some (Param.newErrorCode 1)) none none none none)) else res
  -- `errors.go:143-150`
  let res ← unsupportedReply (fun | .unsupportedClass m => some m | _ => none) 3 e res
  -- `errors.go:151-158`
  let res ← unsupportedReply (fun | .unsupportedMessage m => some m | _ => none) 4 e res
  -- `errors.go:159-170`
  let res := if e.asUnexpectedMessage.isSome then
    some (.error (Msg.Error.new (some (Param.newErrorCode 6)) E.cfg.routingContexts E.cfg.networkAppearance
      (some (Param.newAffectedPointCode [E.cfg.originatingPointCode])) none)) else res
  -- `errors.go:171-177`
  let res := if e.asInvalidStream.isSome then
    some (.error (Msg.Error.new (some (Param.newErrorCode 9)) none none none none)) else res
  -- `errors.go:178-183`
  return if e.is .aspIDRequired then
    some (.error (Msg.Error.new (some (Param.newErrorCode 0xe)) none none none none)) else res

end GoErr

/-- The Go values for which the model's errors stand. -/
inductive StandsFor : CErr → GoErr → Prop where
  | invalidVersion (v : UInt8) : StandsFor (.invalidVersion v) (.invalidVersion v)
  | unsupportedClass (m : M3UA) : StandsFor (.unsupportedClass m) (.unsupportedClass m)
  | unsupportedMessage (m : M3UA) : StandsFor (.unsupportedMessage m) (.unsupportedMessage m)
  | unexpectedMessage (m : M3UA) : StandsFor (.unexpectedMessage m) (.unexpectedMessage m)
  | invalidStream (id : UInt16) : StandsFor (.invalidStream id) (.invalidStream id)
  | aspIDRequired : StandsFor .aspIDRequired (.var .aspIDRequired)
  | heartbeatExpired : StandsFor .heartbeatExpired (.var .heartbeatExpired)
  | failedToPeelOff : StandsFor .failedToPeelOff (.var .failedToPeelOff)
  | failedToWriteSignal : StandsFor .failedToWriteSignal (.var .failedToWriteSignal)
  | notEstablished : StandsFor .notEstablished (.var .notEstablished)
  | sctpNotAlive : StandsFor .sctpNotAlive (.var .sctpNotAlive)
  | invalidState : StandsFor .invalidState (.var .invalidState)
  /-- `conn.go:132-134`, `166-168` -/
  | sctp (t : String) : StandsFor .sctp (.other t)
  /-- `conn.go:189-191` -/
  | sctpSignal (t : String) : StandsFor .sctp (.wrap "failed to write M3UA" (.other t))
  /-- `conn.go:124-126`, `158-160` -/
  | marshal (e : Err) : StandsFor (.marshal e) (.codec e)
  /-- `conn.go:178-180`; `what` is the Go type of the message -/
  | marshalSignal (what : String) (e : Err) : StandsFor (.marshal e) (.wrap ("failed to create " ++ what) (.codec e))
  /-- `asptm.go:34-37` -/
  | rand (t : String) : StandsFor .rand (.other t)

end M3.Conn
