import Verif.Model.Names

/- Error values as the user sees them: texts and wrapping. -/

set_option autoImplicit false

namespace M3

/-- `Error()` of the errors of packages `messages` (`message.go:189-193`) and `params` (`params.go:63-68`), and of those wrapped with
`fmt.Errorf("failed to decode XXX: %w", err)` (`duna.go:120`, `dava.go:120`, `daud.go:120`, `dupu.go:129`, `drst.go:120`). -/
def Err.text : Err → String
  | .paramInvalidType => "got invalid type in parameter"
  | .paramInvalidLength => "parameter has invalid length value"
  | .paramTooShortToMarshal => "insufficient buffer to serialize parameter to"
  | .paramTooShortToParse => "too short to decode as parameter"
  | .msgTooShortToMarshal => "insufficient buffer to serialize M3UA to"
  | .msgTooShortToParse => "too short to decode as M3UA"
  | .msgInvalidParameter => "got invalid parameter inside a message"
  | .wrapped what e => "failed to decode " ++ what ++ ": " ++ e.text

end M3
