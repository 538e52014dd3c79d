import Verif.Model.Message
import Verif.Model.Names
import Verif.Model.ParamKinds
import Verif.Model.Constants
import Verif.Model.Pc

/-
The tests of the project, evaluated on the model; written by `tools/gen_tests.py` from the `_test.go` files. These are tests of the model, not
theorems about it: they show that it gives the results that the authors of the code expect of the code.
-/

set_option autoImplicit false

namespace M3.Tests

/-- A constant of package `params`. -/
def constant {α : Type} [OfNat α 0] [NatCast α] (b : ConstBlock) (n : String) : α := ((b.get n).getD 0 : Nat)

local instance : NatCast UInt16 := ⟨UInt16.ofNat⟩
local instance : NatCast UInt32 := ⟨UInt32.ofNat⟩

/-- `runTests`, `messages/testutils_test.go:32-90`: decoding, with the payload of the header removed as all tests of messages do; encoding; length; and
the message that `Parse` returns has the class, the type and the names of the other. -/
def codec (built : Res M3UA) (bytes : Bytes) (decode : Bytes → Res M3UA) : Bool :=
  match built with
  | .ok m =>
    decide (decode bytes = .ok m) &&
    (match m.marshalBinary with | .ok (_, b) => b == bytes | _ => false) &&
    m.marshalLen == bytes.length &&
    (match M3UA.parse bytes with
      | .ok p => p.messageClass == m.messageClass && p.messageClassName == m.messageClassName && p.messageType == m.messageType &&
          p.messageTypeName == m.messageTypeName
      | _ => false)
  | _ => false

/-- `messages/params/params_test.go:220-241`. -/
def param (built : Res Param) (bytes : Bytes) : Bool :=
  match built with
  | .ok p => decide (p.marshalBinary = .ok bytes) && decide (Param.parse bytes = .ok p)
  | _ => false

/-- `pc/pc_test.go:48-68`. -/
def pointCode (raw : BitVec 32) (cur next : Pc.Variant) (before after : Bytes) : Bool :=
  match Pc.newPointCode raw cur, Pc.newPointCodeFrom before cur, Pc.newPointCodeFrom after next with
  | some p, some q, some r => p.string == before && q.uint32 == p.uint32 && (p.convertTo next).2 == some after && r.uint32 == p.uint32
  | _, _, _ => false


-- TestAspActiveAck, messages/asp-active-ack_test.go:14
/-- has-all-params -/
example : codec (do return M3UA.aspActiveAck (Msg.AspActiveAck.new (some (Param.newTrafficModeType 2)) (some (Param.newRoutingContext [1])) (some (Param.newInfoString [0x64, 0x65, 0x61, 0x64, 0x62, 0x65, 0x65, 0x66]))))
    [0x01, 0x00, 0x04, 0x03, 0x00, 0x00, 0x00, 0x24, 0x00, 0x0b, 0x00, 0x08, 0x00, 0x00, 0x00, 0x02, 0x00, 0x06, 0x00, 0x08, 0x00, 0x00, 0x00, 0x01, 0x00, 0x04, 0x00, 0x0c, 0x64, 0x65, 0x61, 0x64, 0x62, 0x65, 0x65, 0x66]
    (fun b => do let v ← Msg.AspActiveAck.parse b; return M3UA.aspActiveAck { v with header := { v.header with payload := [] } }) = true := by decide +kernel
/-- has-tmt-rc -/
example : codec (do return M3UA.aspActiveAck (Msg.AspActiveAck.new (some (Param.newTrafficModeType 2)) (some (Param.newRoutingContext [1])) none))
    [0x01, 0x00, 0x04, 0x03, 0x00, 0x00, 0x00, 0x18, 0x00, 0x0b, 0x00, 0x08, 0x00, 0x00, 0x00, 0x02, 0x00, 0x06, 0x00, 0x08, 0x00, 0x00, 0x00, 0x01]
    (fun b => do let v ← Msg.AspActiveAck.parse b; return M3UA.aspActiveAck { v with header := { v.header with payload := [] } }) = true := by decide +kernel
/-- has-tmt-info -/
example : codec (do return M3UA.aspActiveAck (Msg.AspActiveAck.new (some (Param.newTrafficModeType 2)) none (some (Param.newInfoString [0x64, 0x65, 0x61, 0x64, 0x62, 0x65, 0x65, 0x66]))))
    [0x01, 0x00, 0x04, 0x03, 0x00, 0x00, 0x00, 0x1c, 0x00, 0x0b, 0x00, 0x08, 0x00, 0x00, 0x00, 0x02, 0x00, 0x04, 0x00, 0x0c, 0x64, 0x65, 0x61, 0x64, 0x62, 0x65, 0x65, 0x66]
    (fun b => do let v ← Msg.AspActiveAck.parse b; return M3UA.aspActiveAck { v with header := { v.header with payload := [] } }) = true := by decide +kernel
/-- has-rc-info -/
example : codec (do return M3UA.aspActiveAck (Msg.AspActiveAck.new none (some (Param.newRoutingContext [1])) (some (Param.newInfoString [0x64, 0x65, 0x61, 0x64, 0x62, 0x65, 0x65, 0x66]))))
    [0x01, 0x00, 0x04, 0x03, 0x00, 0x00, 0x00, 0x1c, 0x00, 0x06, 0x00, 0x08, 0x00, 0x00, 0x00, 0x01, 0x00, 0x04, 0x00, 0x0c, 0x64, 0x65, 0x61, 0x64, 0x62, 0x65, 0x65, 0x66]
    (fun b => do let v ← Msg.AspActiveAck.parse b; return M3UA.aspActiveAck { v with header := { v.header with payload := [] } }) = true := by decide +kernel
/-- has-tmt -/
example : codec (do return M3UA.aspActiveAck (Msg.AspActiveAck.new (some (Param.newTrafficModeType 2)) none none))
    [0x01, 0x00, 0x04, 0x03, 0x00, 0x00, 0x00, 0x10, 0x00, 0x0b, 0x00, 0x08, 0x00, 0x00, 0x00, 0x02]
    (fun b => do let v ← Msg.AspActiveAck.parse b; return M3UA.aspActiveAck { v with header := { v.header with payload := [] } }) = true := by decide +kernel
/-- has-rc -/
example : codec (do return M3UA.aspActiveAck (Msg.AspActiveAck.new none (some (Param.newRoutingContext [1])) none))
    [0x01, 0x00, 0x04, 0x03, 0x00, 0x00, 0x00, 0x10, 0x00, 0x06, 0x00, 0x08, 0x00, 0x00, 0x00, 0x01]
    (fun b => do let v ← Msg.AspActiveAck.parse b; return M3UA.aspActiveAck { v with header := { v.header with payload := [] } }) = true := by decide +kernel
/-- has-info -/
example : codec (do return M3UA.aspActiveAck (Msg.AspActiveAck.new none none (some (Param.newInfoString [0x64, 0x65, 0x61, 0x64, 0x62, 0x65, 0x65, 0x66]))))
    [0x01, 0x00, 0x04, 0x03, 0x00, 0x00, 0x00, 0x14, 0x00, 0x04, 0x00, 0x0c, 0x64, 0x65, 0x61, 0x64, 0x62, 0x65, 0x65, 0x66]
    (fun b => do let v ← Msg.AspActiveAck.parse b; return M3UA.aspActiveAck { v with header := { v.header with payload := [] } }) = true := by decide +kernel
/-- has-none -/
example : codec (do return M3UA.aspActiveAck (Msg.AspActiveAck.new none none none))
    [0x01, 0x00, 0x04, 0x03, 0x00, 0x00, 0x00, 0x08]
    (fun b => do let v ← Msg.AspActiveAck.parse b; return M3UA.aspActiveAck { v with header := { v.header with payload := [] } }) = true := by decide +kernel

-- TestAspActive, messages/asp-active_test.go:14
/-- has-all -/
example : codec (do return M3UA.aspActive (Msg.AspActive.new (some (Param.newTrafficModeType 2)) (some (Param.newRoutingContext [1])) (some (Param.newInfoString [0x64, 0x65, 0x61, 0x64, 0x62, 0x65, 0x65, 0x66]))))
    [0x01, 0x00, 0x04, 0x01, 0x00, 0x00, 0x00, 0x24, 0x00, 0x0b, 0x00, 0x08, 0x00, 0x00, 0x00, 0x02, 0x00, 0x06, 0x00, 0x08, 0x00, 0x00, 0x00, 0x01, 0x00, 0x04, 0x00, 0x0c, 0x64, 0x65, 0x61, 0x64, 0x62, 0x65, 0x65, 0x66]
    (fun b => do let v ← Msg.AspActive.parse b; return M3UA.aspActive { v with header := { v.header with payload := [] } }) = true := by decide +kernel
/-- has-tmt-rc -/
example : codec (do return M3UA.aspActive (Msg.AspActive.new (some (Param.newTrafficModeType 2)) (some (Param.newRoutingContext [1])) none))
    [0x01, 0x00, 0x04, 0x01, 0x00, 0x00, 0x00, 0x18, 0x00, 0x0b, 0x00, 0x08, 0x00, 0x00, 0x00, 0x02, 0x00, 0x06, 0x00, 0x08, 0x00, 0x00, 0x00, 0x01]
    (fun b => do let v ← Msg.AspActive.parse b; return M3UA.aspActive { v with header := { v.header with payload := [] } }) = true := by decide +kernel
/-- has-tmt-info -/
example : codec (do return M3UA.aspActive (Msg.AspActive.new (some (Param.newTrafficModeType 2)) none (some (Param.newInfoString [0x64, 0x65, 0x61, 0x64, 0x62, 0x65, 0x65, 0x66]))))
    [0x01, 0x00, 0x04, 0x01, 0x00, 0x00, 0x00, 0x1c, 0x00, 0x0b, 0x00, 0x08, 0x00, 0x00, 0x00, 0x02, 0x00, 0x04, 0x00, 0x0c, 0x64, 0x65, 0x61, 0x64, 0x62, 0x65, 0x65, 0x66]
    (fun b => do let v ← Msg.AspActive.parse b; return M3UA.aspActive { v with header := { v.header with payload := [] } }) = true := by decide +kernel
/-- has-rc-info -/
example : codec (do return M3UA.aspActive (Msg.AspActive.new none (some (Param.newRoutingContext [1])) (some (Param.newInfoString [0x64, 0x65, 0x61, 0x64, 0x62, 0x65, 0x65, 0x66]))))
    [0x01, 0x00, 0x04, 0x01, 0x00, 0x00, 0x00, 0x1c, 0x00, 0x06, 0x00, 0x08, 0x00, 0x00, 0x00, 0x01, 0x00, 0x04, 0x00, 0x0c, 0x64, 0x65, 0x61, 0x64, 0x62, 0x65, 0x65, 0x66]
    (fun b => do let v ← Msg.AspActive.parse b; return M3UA.aspActive { v with header := { v.header with payload := [] } }) = true := by decide +kernel
/-- has-tmt -/
example : codec (do return M3UA.aspActive (Msg.AspActive.new (some (Param.newTrafficModeType 2)) none none))
    [0x01, 0x00, 0x04, 0x01, 0x00, 0x00, 0x00, 0x10, 0x00, 0x0b, 0x00, 0x08, 0x00, 0x00, 0x00, 0x02]
    (fun b => do let v ← Msg.AspActive.parse b; return M3UA.aspActive { v with header := { v.header with payload := [] } }) = true := by decide +kernel
/-- has-rc -/
example : codec (do return M3UA.aspActive (Msg.AspActive.new none (some (Param.newRoutingContext [1])) none))
    [0x01, 0x00, 0x04, 0x01, 0x00, 0x00, 0x00, 0x10, 0x00, 0x06, 0x00, 0x08, 0x00, 0x00, 0x00, 0x01]
    (fun b => do let v ← Msg.AspActive.parse b; return M3UA.aspActive { v with header := { v.header with payload := [] } }) = true := by decide +kernel
/-- has-info -/
example : codec (do return M3UA.aspActive (Msg.AspActive.new none none (some (Param.newInfoString [0x64, 0x65, 0x61, 0x64, 0x62, 0x65, 0x65, 0x66]))))
    [0x01, 0x00, 0x04, 0x01, 0x00, 0x00, 0x00, 0x14, 0x00, 0x04, 0x00, 0x0c, 0x64, 0x65, 0x61, 0x64, 0x62, 0x65, 0x65, 0x66]
    (fun b => do let v ← Msg.AspActive.parse b; return M3UA.aspActive { v with header := { v.header with payload := [] } }) = true := by decide +kernel
/-- has-none -/
example : codec (do return M3UA.aspActive (Msg.AspActive.new none none none))
    [0x01, 0x00, 0x04, 0x01, 0x00, 0x00, 0x00, 0x08]
    (fun b => do let v ← Msg.AspActive.parse b; return M3UA.aspActive { v with header := { v.header with payload := [] } }) = true := by decide +kernel

-- TestAspDownAck, messages/asp-down-ack_test.go:14
/-- has-info -/
example : codec (do return M3UA.aspDownAck (Msg.AspDownAck.new (some (Param.newInfoString [0x64, 0x65, 0x61, 0x64, 0x62, 0x65, 0x65, 0x66]))))
    [0x01, 0x00, 0x03, 0x05, 0x00, 0x00, 0x00, 0x14, 0x00, 0x04, 0x00, 0x0c, 0x64, 0x65, 0x61, 0x64, 0x62, 0x65, 0x65, 0x66]
    (fun b => do let v ← Msg.AspDownAck.parse b; return M3UA.aspDownAck { v with header := { v.header with payload := [] } }) = true := by decide +kernel
/-- has-none -/
example : codec (do return M3UA.aspDownAck (Msg.AspDownAck.new none))
    [0x01, 0x00, 0x03, 0x05, 0x00, 0x00, 0x00, 0x08]
    (fun b => do let v ← Msg.AspDownAck.parse b; return M3UA.aspDownAck { v with header := { v.header with payload := [] } }) = true := by decide +kernel

-- TestAspDown, messages/asp-down_test.go:14
/-- has-info -/
example : codec (do return M3UA.aspDown (Msg.AspDown.new (some (Param.newInfoString [0x64, 0x65, 0x61, 0x64, 0x62, 0x65, 0x65, 0x66]))))
    [0x01, 0x00, 0x03, 0x02, 0x00, 0x00, 0x00, 0x14, 0x00, 0x04, 0x00, 0x0c, 0x64, 0x65, 0x61, 0x64, 0x62, 0x65, 0x65, 0x66]
    (fun b => do let v ← Msg.AspDown.parse b; return M3UA.aspDown { v with header := { v.header with payload := [] } }) = true := by decide +kernel
/-- has-none -/
example : codec (do return M3UA.aspDown (Msg.AspDown.new none))
    [0x01, 0x00, 0x03, 0x02, 0x00, 0x00, 0x00, 0x08]
    (fun b => do let v ← Msg.AspDown.parse b; return M3UA.aspDown { v with header := { v.header with payload := [] } }) = true := by decide +kernel

-- TestAspInactiveAck, messages/asp-inactive-ack_test.go:14
/-- has-all -/
example : codec (do return M3UA.aspInactiveAck (Msg.AspInactiveAck.new (some (Param.newRoutingContext [1])) (some (Param.newInfoString [0x64, 0x65, 0x61, 0x64, 0x62, 0x65, 0x65, 0x66]))))
    [0x01, 0x00, 0x04, 0x04, 0x00, 0x00, 0x00, 0x1c, 0x00, 0x06, 0x00, 0x08, 0x00, 0x00, 0x00, 0x01, 0x00, 0x04, 0x00, 0x0c, 0x64, 0x65, 0x61, 0x64, 0x62, 0x65, 0x65, 0x66]
    (fun b => do let v ← Msg.AspInactiveAck.parse b; return M3UA.aspInactiveAck { v with header := { v.header with payload := [] } }) = true := by decide +kernel
/-- has-rc -/
example : codec (do return M3UA.aspInactiveAck (Msg.AspInactiveAck.new (some (Param.newRoutingContext [1])) none))
    [0x01, 0x00, 0x04, 0x04, 0x00, 0x00, 0x00, 0x10, 0x00, 0x06, 0x00, 0x08, 0x00, 0x00, 0x00, 0x01]
    (fun b => do let v ← Msg.AspInactiveAck.parse b; return M3UA.aspInactiveAck { v with header := { v.header with payload := [] } }) = true := by decide +kernel
/-- has-info -/
example : codec (do return M3UA.aspInactiveAck (Msg.AspInactiveAck.new none (some (Param.newInfoString [0x64, 0x65, 0x61, 0x64, 0x62, 0x65, 0x65, 0x66]))))
    [0x01, 0x00, 0x04, 0x04, 0x00, 0x00, 0x00, 0x14, 0x00, 0x04, 0x00, 0x0c, 0x64, 0x65, 0x61, 0x64, 0x62, 0x65, 0x65, 0x66]
    (fun b => do let v ← Msg.AspInactiveAck.parse b; return M3UA.aspInactiveAck { v with header := { v.header with payload := [] } }) = true := by decide +kernel
/-- has-none -/
example : codec (do return M3UA.aspInactiveAck (Msg.AspInactiveAck.new none none))
    [0x01, 0x00, 0x04, 0x04, 0x00, 0x00, 0x00, 0x08]
    (fun b => do let v ← Msg.AspInactiveAck.parse b; return M3UA.aspInactiveAck { v with header := { v.header with payload := [] } }) = true := by decide +kernel

-- TestAspInactive, messages/asp-inactive_test.go:14
/-- has-all -/
example : codec (do return M3UA.aspInactive (Msg.AspInactive.new (some (Param.newRoutingContext [1])) (some (Param.newInfoString [0x64, 0x65, 0x61, 0x64, 0x62, 0x65, 0x65, 0x66]))))
    [0x01, 0x00, 0x04, 0x02, 0x00, 0x00, 0x00, 0x1c, 0x00, 0x06, 0x00, 0x08, 0x00, 0x00, 0x00, 0x01, 0x00, 0x04, 0x00, 0x0c, 0x64, 0x65, 0x61, 0x64, 0x62, 0x65, 0x65, 0x66]
    (fun b => do let v ← Msg.AspInactive.parse b; return M3UA.aspInactive { v with header := { v.header with payload := [] } }) = true := by decide +kernel
/-- has-rc -/
example : codec (do return M3UA.aspInactive (Msg.AspInactive.new (some (Param.newRoutingContext [1])) none))
    [0x01, 0x00, 0x04, 0x02, 0x00, 0x00, 0x00, 0x10, 0x00, 0x06, 0x00, 0x08, 0x00, 0x00, 0x00, 0x01]
    (fun b => do let v ← Msg.AspInactive.parse b; return M3UA.aspInactive { v with header := { v.header with payload := [] } }) = true := by decide +kernel
/-- has-info -/
example : codec (do return M3UA.aspInactive (Msg.AspInactive.new none (some (Param.newInfoString [0x64, 0x65, 0x61, 0x64, 0x62, 0x65, 0x65, 0x66]))))
    [0x01, 0x00, 0x04, 0x02, 0x00, 0x00, 0x00, 0x14, 0x00, 0x04, 0x00, 0x0c, 0x64, 0x65, 0x61, 0x64, 0x62, 0x65, 0x65, 0x66]
    (fun b => do let v ← Msg.AspInactive.parse b; return M3UA.aspInactive { v with header := { v.header with payload := [] } }) = true := by decide +kernel
/-- has-none -/
example : codec (do return M3UA.aspInactive (Msg.AspInactive.new none none))
    [0x01, 0x00, 0x04, 0x02, 0x00, 0x00, 0x00, 0x08]
    (fun b => do let v ← Msg.AspInactive.parse b; return M3UA.aspInactive { v with header := { v.header with payload := [] } }) = true := by decide +kernel

-- TestAspUpAck, messages/asp-up-ack_test.go:14
/-- has-all -/
example : codec (do return M3UA.aspUpAck (Msg.AspUpAck.new (some (Param.newAspIdentifier 1)) (some (Param.newInfoString [0x64, 0x65, 0x61, 0x64, 0x62, 0x65, 0x65, 0x66]))))
    [0x01, 0x00, 0x03, 0x04, 0x00, 0x00, 0x00, 0x1c, 0x00, 0x11, 0x00, 0x08, 0x00, 0x00, 0x00, 0x01, 0x00, 0x04, 0x00, 0x0c, 0x64, 0x65, 0x61, 0x64, 0x62, 0x65, 0x65, 0x66]
    (fun b => do let v ← Msg.AspUpAck.parse b; return M3UA.aspUpAck { v with header := { v.header with payload := [] } }) = true := by decide +kernel
/-- has-asp -/
example : codec (do return M3UA.aspUpAck (Msg.AspUpAck.new (some (Param.newAspIdentifier 1)) none))
    [0x01, 0x00, 0x03, 0x04, 0x00, 0x00, 0x00, 0x10, 0x00, 0x11, 0x00, 0x08, 0x00, 0x00, 0x00, 0x01]
    (fun b => do let v ← Msg.AspUpAck.parse b; return M3UA.aspUpAck { v with header := { v.header with payload := [] } }) = true := by decide +kernel
/-- has-info -/
example : codec (do return M3UA.aspUpAck (Msg.AspUpAck.new none (some (Param.newInfoString [0x64, 0x65, 0x61, 0x64, 0x62, 0x65, 0x65, 0x66]))))
    [0x01, 0x00, 0x03, 0x04, 0x00, 0x00, 0x00, 0x14, 0x00, 0x04, 0x00, 0x0c, 0x64, 0x65, 0x61, 0x64, 0x62, 0x65, 0x65, 0x66]
    (fun b => do let v ← Msg.AspUpAck.parse b; return M3UA.aspUpAck { v with header := { v.header with payload := [] } }) = true := by decide +kernel
/-- has-none -/
example : codec (do return M3UA.aspUpAck (Msg.AspUpAck.new none none))
    [0x01, 0x00, 0x03, 0x04, 0x00, 0x00, 0x00, 0x08]
    (fun b => do let v ← Msg.AspUpAck.parse b; return M3UA.aspUpAck { v with header := { v.header with payload := [] } }) = true := by decide +kernel

-- TestAspUp, messages/asp-up_test.go:14
/-- has-all -/
example : codec (do return M3UA.aspUp (Msg.AspUp.new (some (Param.newAspIdentifier 1)) (some (Param.newInfoString [0x64, 0x65, 0x61, 0x64, 0x62, 0x65, 0x65, 0x66]))))
    [0x01, 0x00, 0x03, 0x01, 0x00, 0x00, 0x00, 0x1c, 0x00, 0x11, 0x00, 0x08, 0x00, 0x00, 0x00, 0x01, 0x00, 0x04, 0x00, 0x0c, 0x64, 0x65, 0x61, 0x64, 0x62, 0x65, 0x65, 0x66]
    (fun b => do let v ← Msg.AspUp.parse b; return M3UA.aspUp { v with header := { v.header with payload := [] } }) = true := by decide +kernel
/-- has-asp -/
example : codec (do return M3UA.aspUp (Msg.AspUp.new (some (Param.newAspIdentifier 1)) none))
    [0x01, 0x00, 0x03, 0x01, 0x00, 0x00, 0x00, 0x10, 0x00, 0x11, 0x00, 0x08, 0x00, 0x00, 0x00, 0x01]
    (fun b => do let v ← Msg.AspUp.parse b; return M3UA.aspUp { v with header := { v.header with payload := [] } }) = true := by decide +kernel
/-- has-info -/
example : codec (do return M3UA.aspUp (Msg.AspUp.new none (some (Param.newInfoString [0x64, 0x65, 0x61, 0x64, 0x62, 0x65, 0x65, 0x66]))))
    [0x01, 0x00, 0x03, 0x01, 0x00, 0x00, 0x00, 0x14, 0x00, 0x04, 0x00, 0x0c, 0x64, 0x65, 0x61, 0x64, 0x62, 0x65, 0x65, 0x66]
    (fun b => do let v ← Msg.AspUp.parse b; return M3UA.aspUp { v with header := { v.header with payload := [] } }) = true := by decide +kernel
/-- has-none -/
example : codec (do return M3UA.aspUp (Msg.AspUp.new none none))
    [0x01, 0x00, 0x03, 0x01, 0x00, 0x00, 0x00, 0x08]
    (fun b => do let v ← Msg.AspUp.parse b; return M3UA.aspUp { v with header := { v.header with payload := [] } }) = true := by decide +kernel

-- TestData, messages/data_test.go:14
/-- has-all -/
example : codec (do let x0 ← Param.newProtocolData 1 2 3 1 0 1 [0xde, 0xad, 0xbe, 0xef]; return M3UA.data (Msg.Data.new (some (Param.newNetworkAppearance 1)) (some (Param.newRoutingContext [1])) (some x0) none))
    [0x01, 0x00, 0x01, 0x01, 0x00, 0x00, 0x00, 0x2c, 0x02, 0x00, 0x00, 0x08, 0x00, 0x00, 0x00, 0x01, 0x00, 0x06, 0x00, 0x08, 0x00, 0x00, 0x00, 0x01, 0x02, 0x10, 0x00, 0x14, 0x00, 0x00, 0x00, 0x01, 0x00, 0x00, 0x00, 0x02, 0x03, 0x01, 0x00, 0x01, 0xde, 0xad, 0xbe, 0xef]
    (fun b => do let v ← Msg.Data.parse b; return M3UA.data { v with header := { v.header with payload := [] } }) = true := by decide +kernel
/-- has-rc -/
example : codec (do let x0 ← Param.newProtocolData 1 2 3 1 0 1 [0xde, 0xad, 0xbe, 0xef]; return M3UA.data (Msg.Data.new (some (Param.newNetworkAppearance 1)) none (some x0) none))
    [0x01, 0x00, 0x01, 0x01, 0x00, 0x00, 0x00, 0x24, 0x02, 0x00, 0x00, 0x08, 0x00, 0x00, 0x00, 0x01, 0x02, 0x10, 0x00, 0x14, 0x00, 0x00, 0x00, 0x01, 0x00, 0x00, 0x00, 0x02, 0x03, 0x01, 0x00, 0x01, 0xde, 0xad, 0xbe, 0xef]
    (fun b => do let v ← Msg.Data.parse b; return M3UA.data { v with header := { v.header with payload := [] } }) = true := by decide +kernel
/-- has-info -/
example : codec (do let x0 ← Param.newProtocolData 1 2 3 1 0 1 [0xde, 0xad, 0xbe, 0xef]; return M3UA.data (Msg.Data.new none (some (Param.newRoutingContext [1, 255])) (some x0) none))
    [0x01, 0x00, 0x01, 0x01, 0x00, 0x00, 0x00, 0x28, 0x00, 0x06, 0x00, 0x0c, 0x00, 0x00, 0x00, 0x01, 0x00, 0x00, 0x00, 0xff, 0x02, 0x10, 0x00, 0x14, 0x00, 0x00, 0x00, 0x01, 0x00, 0x00, 0x00, 0x02, 0x03, 0x01, 0x00, 0x01, 0xde, 0xad, 0xbe, 0xef]
    (fun b => do let v ← Msg.Data.parse b; return M3UA.data { v with header := { v.header with payload := [] } }) = true := by decide +kernel
/-- has-none -/
example : codec (do let x0 ← Param.newProtocolData 1 2 3 1 0 1 [0xde, 0xad, 0xbe, 0xef]; return M3UA.data (Msg.Data.new none none (some x0) none))
    [0x01, 0x00, 0x01, 0x01, 0x00, 0x00, 0x00, 0x1c, 0x02, 0x10, 0x00, 0x14, 0x00, 0x00, 0x00, 0x01, 0x00, 0x00, 0x00, 0x02, 0x03, 0x01, 0x00, 0x01, 0xde, 0xad, 0xbe, 0xef]
    (fun b => do let v ← Msg.Data.parse b; return M3UA.data { v with header := { v.header with payload := [] } }) = true := by decide +kernel

-- TestDestinationStateAudit, messages/daud_test.go:14
/-- has-all -/
example : codec (do return M3UA.daud (Msg.DestinationStateAudit.new (some (Param.newNetworkAppearance 1)) (some (Param.newRoutingContext [2])) (some (Param.newAffectedPointCode [3, 4])) (some (Param.newInfoString [0x64, 0x65, 0x61, 0x64, 0x62, 0x65, 0x65, 0x66]))))
    [0x01, 0x00, 0x02, 0x03, 0x00, 0x00, 0x00, 0x30, 0x02, 0x00, 0x00, 0x08, 0x00, 0x00, 0x00, 0x01, 0x00, 0x06, 0x00, 0x08, 0x00, 0x00, 0x00, 0x02, 0x00, 0x12, 0x00, 0x0c, 0x00, 0x00, 0x00, 0x03, 0x00, 0x00, 0x00, 0x04, 0x00, 0x04, 0x00, 0x0c, 0x64, 0x65, 0x61, 0x64, 0x62, 0x65, 0x65, 0x66]
    (fun b => do let v ← Msg.DestinationStateAudit.parse b; return M3UA.daud { v with header := { v.header with payload := [] } }) = true := by decide +kernel

-- TestDestinationAvailable, messages/dava_test.go:14
/-- has-all -/
example : codec (do return M3UA.dava (Msg.DestinationAvailable.new (some (Param.newNetworkAppearance 1)) (some (Param.newRoutingContext [2])) (some (Param.newAffectedPointCode [3, 4])) (some (Param.newInfoString [0x64, 0x65, 0x61, 0x64, 0x62, 0x65, 0x65, 0x66]))))
    [0x01, 0x00, 0x02, 0x02, 0x00, 0x00, 0x00, 0x30, 0x02, 0x00, 0x00, 0x08, 0x00, 0x00, 0x00, 0x01, 0x00, 0x06, 0x00, 0x08, 0x00, 0x00, 0x00, 0x02, 0x00, 0x12, 0x00, 0x0c, 0x00, 0x00, 0x00, 0x03, 0x00, 0x00, 0x00, 0x04, 0x00, 0x04, 0x00, 0x0c, 0x64, 0x65, 0x61, 0x64, 0x62, 0x65, 0x65, 0x66]
    (fun b => do let v ← Msg.DestinationAvailable.parse b; return M3UA.dava { v with header := { v.header with payload := [] } }) = true := by decide +kernel

-- TestDestinationRestricted, messages/drst_test.go:14
/-- has-all -/
example : codec (do return M3UA.drst (Msg.DestinationRestricted.new (some (Param.newNetworkAppearance 1)) (some (Param.newRoutingContext [2])) (some (Param.newAffectedPointCode [3, 4])) (some (Param.newInfoString [0x64, 0x65, 0x61, 0x64, 0x62, 0x65, 0x65, 0x66]))))
    [0x01, 0x00, 0x02, 0x06, 0x00, 0x00, 0x00, 0x30, 0x02, 0x00, 0x00, 0x08, 0x00, 0x00, 0x00, 0x01, 0x00, 0x06, 0x00, 0x08, 0x00, 0x00, 0x00, 0x02, 0x00, 0x12, 0x00, 0x0c, 0x00, 0x00, 0x00, 0x03, 0x00, 0x00, 0x00, 0x04, 0x00, 0x04, 0x00, 0x0c, 0x64, 0x65, 0x61, 0x64, 0x62, 0x65, 0x65, 0x66]
    (fun b => do let v ← Msg.DestinationRestricted.parse b; return M3UA.drst { v with header := { v.header with payload := [] } }) = true := by decide +kernel

-- TestDestinationUnavailable, messages/duna_test.go:14
/-- has-all -/
example : codec (do return M3UA.duna (Msg.DestinationUnavailable.new (some (Param.newNetworkAppearance 1)) (some (Param.newRoutingContext [2])) (some (Param.newAffectedPointCode [3, 4])) (some (Param.newInfoString [0x64, 0x65, 0x61, 0x64, 0x62, 0x65, 0x65, 0x66]))))
    [0x01, 0x00, 0x02, 0x01, 0x00, 0x00, 0x00, 0x30, 0x02, 0x00, 0x00, 0x08, 0x00, 0x00, 0x00, 0x01, 0x00, 0x06, 0x00, 0x08, 0x00, 0x00, 0x00, 0x02, 0x00, 0x12, 0x00, 0x0c, 0x00, 0x00, 0x00, 0x03, 0x00, 0x00, 0x00, 0x04, 0x00, 0x04, 0x00, 0x0c, 0x64, 0x65, 0x61, 0x64, 0x62, 0x65, 0x65, 0x66]
    (fun b => do let v ← Msg.DestinationUnavailable.parse b; return M3UA.duna { v with header := { v.header with payload := [] } }) = true := by decide +kernel

-- TestDestinationUserPartUnavailable, messages/dupu_test.go:14
/-- has-all -/
example : codec (do return M3UA.dupu (Msg.DestinationUserPartUnavailable.new (some (Param.newNetworkAppearance 1)) (some (Param.newRoutingContext [2])) (some (Param.newAffectedPointCode [3, 4])) (some (Param.newUserCause (constant Const.unavailability "UserIdentityUnknown") (constant Const.mtp3User "SCCP"))) (some (Param.newInfoString [0x64, 0x65, 0x61, 0x64, 0x62, 0x65, 0x65, 0x66]))))
    [0x01, 0x00, 0x02, 0x05, 0x00, 0x00, 0x00, 0x38, 0x02, 0x00, 0x00, 0x08, 0x00, 0x00, 0x00, 0x01, 0x00, 0x06, 0x00, 0x08, 0x00, 0x00, 0x00, 0x02, 0x00, 0x12, 0x00, 0x0c, 0x00, 0x00, 0x00, 0x03, 0x00, 0x00, 0x00, 0x04, 0x02, 0x04, 0x00, 0x08, 0x00, 0x01, 0x00, 0x00, 0x00, 0x04, 0x00, 0x0c, 0x64, 0x65, 0x61, 0x64, 0x62, 0x65, 0x65, 0x66]
    (fun b => do let v ← Msg.DestinationUserPartUnavailable.parse b; return M3UA.dupu { v with header := { v.header with payload := [] } }) = true := by decide +kernel

-- TestError, messages/error_test.go:14
/-- has-all -/
example : codec (do return M3UA.error (Msg.Error.new (some (Param.newErrorCode (constant Const.errorCode "InvalidVersionError"))) (some (Param.newRoutingContext [1])) (some (Param.newNetworkAppearance 1)) (some (Param.newAffectedPointCode [286331153, 572662306])) (some (Param.newDiagnosticInformation [0xde, 0xad, 0xbe, 0xef]))))
    [0x01, 0x00, 0x00, 0x00, 0x00, 0x00, 0x00, 0x34, 0x00, 0x0c, 0x00, 0x08, 0x00, 0x00, 0x00, 0x01, 0x00, 0x06, 0x00, 0x08, 0x00, 0x00, 0x00, 0x01, 0x02, 0x00, 0x00, 0x08, 0x00, 0x00, 0x00, 0x01, 0x00, 0x12, 0x00, 0x0c, 0x11, 0x11, 0x11, 0x11, 0x22, 0x22, 0x22, 0x22, 0x00, 0x07, 0x00, 0x08, 0xde, 0xad, 0xbe, 0xef]
    (fun b => do let v ← Msg.Error.parse b; return M3UA.error { v with header := { v.header with payload := [] } }) = true := by decide +kernel
/-- has-none -/
example : codec (do return M3UA.error (Msg.Error.new none none none none none))
    [0x01, 0x00, 0x00, 0x00, 0x00, 0x00, 0x00, 0x08]
    (fun b => do let v ← Msg.Error.parse b; return M3UA.error { v with header := { v.header with payload := [] } }) = true := by decide +kernel

-- TestGeneric, messages/generic_test.go:14
/-- has-all -/
example : codec (do return M3UA.generic (Msg.Generic.new 1 127 127 [(Param.newNetworkAppearance 1), (Param.newRoutingContext [1, 255])]))
    [0x01, 0x00, 0x7f, 0x7f, 0x00, 0x00, 0x00, 0x1c, 0x02, 0x00, 0x00, 0x08, 0x00, 0x00, 0x00, 0x01, 0x00, 0x06, 0x00, 0x0c, 0x00, 0x00, 0x00, 0x01, 0x00, 0x00, 0x00, 0xff]
    (fun b => do let v ← Msg.Generic.parse b; return M3UA.generic { v with header := { v.header with payload := [] } }) = true := by decide +kernel

-- TestHeader, messages/header_test.go:12
/-- has-all -/
example : (Header.new 1 16 16 [0xde, 0xad, 0xbe, 0xef]).marshalBinary = .ok [0x01, 0x00, 0x10, 0x10, 0x00, 0x00, 0x00, 0x0c, 0xde, 0xad, 0xbe, 0xef] ∧ Header.parse [0x01, 0x00, 0x10, 0x10, 0x00, 0x00, 0x00, 0x0c, 0xde, 0xad, 0xbe, 0xef] = .ok (Header.new 1 16 16 [0xde, 0xad, 0xbe, 0xef]) ∧ (Header.new 1 16 16 [0xde, 0xad, 0xbe, 0xef]).marshalLen = 12 := by decide +kernel

-- TestHeartbeatAck, messages/heartbeat-ack_test.go:14
/-- has-all -/
example : codec (do return M3UA.heartbeatAck (Msg.HeartbeatAck.new (some (Param.newHeartbeatData [0xde, 0xad, 0xbe, 0xef]))))
    [0x01, 0x00, 0x03, 0x06, 0x00, 0x00, 0x00, 0x10, 0x00, 0x09, 0x00, 0x08, 0xde, 0xad, 0xbe, 0xef]
    (fun b => do let v ← Msg.HeartbeatAck.parse b; return M3UA.heartbeatAck { v with header := { v.header with payload := [] } }) = true := by decide +kernel

-- TestHeartbeat, messages/heartbeat_test.go:14
/-- has-all -/
example : codec (do return M3UA.heartbeat (Msg.Heartbeat.new (some (Param.newHeartbeatData [0xde, 0xad, 0xbe, 0xef]))))
    [0x01, 0x00, 0x03, 0x03, 0x00, 0x00, 0x00, 0x10, 0x00, 0x09, 0x00, 0x08, 0xde, 0xad, 0xbe, 0xef]
    (fun b => do let v ← Msg.Heartbeat.parse b; return M3UA.heartbeat { v with header := { v.header with payload := [] } }) = true := by decide +kernel
-- TestParseMalformed, messages/messages_test.go:12
example : M3UA.parse [0x00] = .err .msgTooShortToParse := by decide +kernel
example : M3UA.parse [0x00, 0x00] = .err .msgTooShortToParse := by decide +kernel
example : M3UA.parse [0x00, 0x00, 0x00] = .err .msgTooShortToParse := by decide +kernel
example : M3UA.parse [0x00, 0x00, 0x00, 0x00] = .err .msgTooShortToParse := by decide +kernel

-- TestNotify, messages/notify_test.go:14
/-- has-all-params -/
example : codec (do return M3UA.notify (Msg.Notify.new (some (Param.newStatus (constant Const.asState "AsStateActive"))) (some (Param.newAspIdentifier 2)) (some (Param.newRoutingContext [1])) (some (Param.newInfoString [0x64, 0x65, 0x61, 0x64, 0x62, 0x65, 0x65, 0x66]))))
    [0x01, 0x00, 0x00, 0x01, 0x00, 0x00, 0x00, 0x2c, 0x00, 0x0d, 0x00, 0x08, 0x00, 0x01, 0x00, 0x03, 0x00, 0x11, 0x00, 0x08, 0x00, 0x00, 0x00, 0x02, 0x00, 0x06, 0x00, 0x08, 0x00, 0x00, 0x00, 0x01, 0x00, 0x04, 0x00, 0x0c, 0x64, 0x65, 0x61, 0x64, 0x62, 0x65, 0x65, 0x66]
    (fun b => do let v ← Msg.Notify.parse b; return M3UA.notify { v with header := { v.header with payload := [] } }) = true := by decide +kernel
/-- has-asp-rc -/
example : codec (do return M3UA.notify (Msg.Notify.new (some (Param.newStatus (constant Const.asState "AsStateActive"))) (some (Param.newAspIdentifier 2)) (some (Param.newRoutingContext [1])) none))
    [0x01, 0x00, 0x00, 0x01, 0x00, 0x00, 0x00, 0x20, 0x00, 0x0d, 0x00, 0x08, 0x00, 0x01, 0x00, 0x03, 0x00, 0x11, 0x00, 0x08, 0x00, 0x00, 0x00, 0x02, 0x00, 0x06, 0x00, 0x08, 0x00, 0x00, 0x00, 0x01]
    (fun b => do let v ← Msg.Notify.parse b; return M3UA.notify { v with header := { v.header with payload := [] } }) = true := by decide +kernel
/-- has-asp-info -/
example : codec (do return M3UA.notify (Msg.Notify.new (some (Param.newStatus (constant Const.asState "AsStateActive"))) (some (Param.newAspIdentifier 2)) none (some (Param.newInfoString [0x64, 0x65, 0x61, 0x64, 0x62, 0x65, 0x65, 0x66]))))
    [0x01, 0x00, 0x00, 0x01, 0x00, 0x00, 0x00, 0x24, 0x00, 0x0d, 0x00, 0x08, 0x00, 0x01, 0x00, 0x03, 0x00, 0x11, 0x00, 0x08, 0x00, 0x00, 0x00, 0x02, 0x00, 0x04, 0x00, 0x0c, 0x64, 0x65, 0x61, 0x64, 0x62, 0x65, 0x65, 0x66]
    (fun b => do let v ← Msg.Notify.parse b; return M3UA.notify { v with header := { v.header with payload := [] } }) = true := by decide +kernel
/-- has-rc-info -/
example : codec (do return M3UA.notify (Msg.Notify.new (some (Param.newStatus (constant Const.asState "AsStateActive"))) none (some (Param.newRoutingContext [1])) (some (Param.newInfoString [0x64, 0x65, 0x61, 0x64, 0x62, 0x65, 0x65, 0x66]))))
    [0x01, 0x00, 0x00, 0x01, 0x00, 0x00, 0x00, 0x24, 0x00, 0x0d, 0x00, 0x08, 0x00, 0x01, 0x00, 0x03, 0x00, 0x06, 0x00, 0x08, 0x00, 0x00, 0x00, 0x01, 0x00, 0x04, 0x00, 0x0c, 0x64, 0x65, 0x61, 0x64, 0x62, 0x65, 0x65, 0x66]
    (fun b => do let v ← Msg.Notify.parse b; return M3UA.notify { v with header := { v.header with payload := [] } }) = true := by decide +kernel
/-- has-asp -/
example : codec (do return M3UA.notify (Msg.Notify.new (some (Param.newStatus (constant Const.asState "AsStateActive"))) (some (Param.newAspIdentifier 2)) none none))
    [0x01, 0x00, 0x00, 0x01, 0x00, 0x00, 0x00, 0x18, 0x00, 0x0d, 0x00, 0x08, 0x00, 0x01, 0x00, 0x03, 0x00, 0x11, 0x00, 0x08, 0x00, 0x00, 0x00, 0x02]
    (fun b => do let v ← Msg.Notify.parse b; return M3UA.notify { v with header := { v.header with payload := [] } }) = true := by decide +kernel
/-- has-rc -/
example : codec (do return M3UA.notify (Msg.Notify.new (some (Param.newStatus (constant Const.asState "AsStateActive"))) none (some (Param.newRoutingContext [1])) none))
    [0x01, 0x00, 0x00, 0x01, 0x00, 0x00, 0x00, 0x18, 0x00, 0x0d, 0x00, 0x08, 0x00, 0x01, 0x00, 0x03, 0x00, 0x06, 0x00, 0x08, 0x00, 0x00, 0x00, 0x01]
    (fun b => do let v ← Msg.Notify.parse b; return M3UA.notify { v with header := { v.header with payload := [] } }) = true := by decide +kernel
/-- has-info -/
example : codec (do return M3UA.notify (Msg.Notify.new (some (Param.newStatus (constant Const.asState "AsStateActive"))) none none (some (Param.newInfoString [0x64, 0x65, 0x61, 0x64, 0x62, 0x65, 0x65, 0x66]))))
    [0x01, 0x00, 0x00, 0x01, 0x00, 0x00, 0x00, 0x1c, 0x00, 0x0d, 0x00, 0x08, 0x00, 0x01, 0x00, 0x03, 0x00, 0x04, 0x00, 0x0c, 0x64, 0x65, 0x61, 0x64, 0x62, 0x65, 0x65, 0x66]
    (fun b => do let v ← Msg.Notify.parse b; return M3UA.notify { v with header := { v.header with payload := [] } }) = true := by decide +kernel
/-- has-status-only -/
example : codec (do return M3UA.notify (Msg.Notify.new (some (Param.newStatus (constant Const.asState "AsStateActive"))) none none none))
    [0x01, 0x00, 0x00, 0x01, 0x00, 0x00, 0x00, 0x10, 0x00, 0x0d, 0x00, 0x08, 0x00, 0x01, 0x00, 0x03]
    (fun b => do let v ← Msg.Notify.parse b; return M3UA.notify { v with header := { v.header with payload := [] } }) = true := by decide +kernel
/-- has-none -/
example : codec (do return M3UA.notify (Msg.Notify.new none none none none))
    [0x01, 0x00, 0x00, 0x01, 0x00, 0x00, 0x00, 0x08]
    (fun b => do let v ← Msg.Notify.parse b; return M3UA.notify { v with header := { v.header with payload := [] } }) = true := by decide +kernel

-- TestSignallingCongestion, messages/scon_test.go:14
/-- has-all -/
example : codec (do return M3UA.scon (Msg.SignallingCongestion.new (some (Param.newNetworkAppearance 1)) (some (Param.newRoutingContext [2])) (some (Param.newAffectedPointCode [3, 4])) (some (Param.newConcernedDestination 5)) (some (Param.newCongestionIndications 6)) (some (Param.newInfoString [0x64, 0x65, 0x61, 0x64, 0x62, 0x65, 0x65, 0x66]))))
    [0x01, 0x00, 0x02, 0x04, 0x00, 0x00, 0x00, 0x40, 0x02, 0x00, 0x00, 0x08, 0x00, 0x00, 0x00, 0x01, 0x00, 0x06, 0x00, 0x08, 0x00, 0x00, 0x00, 0x02, 0x00, 0x12, 0x00, 0x0c, 0x00, 0x00, 0x00, 0x03, 0x00, 0x00, 0x00, 0x04, 0x02, 0x06, 0x00, 0x08, 0x00, 0x00, 0x00, 0x05, 0x02, 0x05, 0x00, 0x08, 0x00, 0x00, 0x00, 0x06, 0x00, 0x04, 0x00, 0x0c, 0x64, 0x65, 0x61, 0x64, 0x62, 0x65, 0x65, 0x66]
    (fun b => do let v ← Msg.SignallingCongestion.parse b; return M3UA.scon { v with header := { v.header with payload := [] } }) = true := by decide +kernel
/-- has-none -/
example : codec (do return M3UA.scon (Msg.SignallingCongestion.new none none none none none none))
    [0x01, 0x00, 0x02, 0x04, 0x00, 0x00, 0x00, 0x08]
    (fun b => do let v ← Msg.SignallingCongestion.parse b; return M3UA.scon { v with header := { v.header with payload := [] } }) = true := by decide +kernel

-- TestParams, messages/params/params_test.go:14
/-- AspIdentifier -/
example : param (do return (Param.newAspIdentifier 1)) [0x00, 0x11, 0x00, 0x08, 0x00, 0x00, 0x00, 0x01] = true := by decide +kernel
/-- TrafficModeType -/
example : param (do return (Param.newTrafficModeType 1)) [0x00, 0x0b, 0x00, 0x08, 0x00, 0x00, 0x00, 0x01] = true := by decide +kernel
/-- NetworkAppearance -/
example : param (do return (Param.newNetworkAppearance 1)) [0x02, 0x00, 0x00, 0x08, 0x00, 0x00, 0x00, 0x01] = true := by decide +kernel
/-- RoutingContext-single -/
example : param (do return (Param.newRoutingContext [1])) [0x00, 0x06, 0x00, 0x08, 0x00, 0x00, 0x00, 0x01] = true := by decide +kernel
/-- RoutingContext-multiple -/
example : param (do return (Param.newRoutingContext [1, 2, 3])) [0x00, 0x06, 0x00, 0x10, 0x00, 0x00, 0x00, 0x01, 0x00, 0x00, 0x00, 0x02, 0x00, 0x00, 0x00, 0x03] = true := by decide +kernel
/-- HeartbeatData -/
example : param (do return (Param.newHeartbeatData [0x73, 0x6f, 0x6d, 0x65, 0x20, 0x69, 0x6e, 0x66, 0x6f, 0x72, 0x6d, 0x61, 0x74, 0x69, 0x6f, 0x6e])) [0x00, 0x09, 0x00, 0x14, 0x73, 0x6f, 0x6d, 0x65, 0x20, 0x69, 0x6e, 0x66, 0x6f, 0x72, 0x6d, 0x61, 0x74, 0x69, 0x6f, 0x6e] = true := by decide +kernel
/-- ErrorCode -/
example : param (do return (Param.newErrorCode (constant Const.errorCode "InvalidVersionError"))) [0x00, 0x0c, 0x00, 0x08, 0x00, 0x00, 0x00, 0x01] = true := by decide +kernel
/-- UserCause -/
example : param (do return (Param.newUserCause (constant Const.unavailability "UserIdentityUnknown") (constant Const.mtp3User "SCCP"))) [0x02, 0x04, 0x00, 0x08, 0x00, 0x01, 0x00, 0x00] = true := by decide +kernel
/-- Status -/
example : param (do return (Param.newStatus (constant Const.asState "AsStateActive"))) [0x00, 0x0d, 0x00, 0x08, 0x00, 0x01, 0x00, 0x03] = true := by decide +kernel
/-- AffectedPointCode -/
example : param (do return (Param.newAffectedPointCode [1, 2, 3])) [0x00, 0x12, 0x00, 0x10, 0x00, 0x00, 0x00, 0x01, 0x00, 0x00, 0x00, 0x02, 0x00, 0x00, 0x00, 0x03] = true := by decide +kernel
/-- ConcernedDestination -/
example : param (do return (Param.newConcernedDestination 1)) [0x02, 0x06, 0x00, 0x08, 0x00, 0x00, 0x00, 0x01] = true := by decide +kernel
/-- CorrelationID -/
example : param (do return (Param.newCorrelationID 1)) [0x00, 0x13, 0x00, 0x08, 0x00, 0x00, 0x00, 0x01] = true := by decide +kernel
/-- InfoString -/
example : param (do return (Param.newInfoString [0x73, 0x6f, 0x6d, 0x65, 0x20, 0x69, 0x6e, 0x66, 0x6f, 0x72, 0x6d, 0x61, 0x74, 0x69, 0x6f, 0x6e])) [0x00, 0x04, 0x00, 0x14, 0x73, 0x6f, 0x6d, 0x65, 0x20, 0x69, 0x6e, 0x66, 0x6f, 0x72, 0x6d, 0x61, 0x74, 0x69, 0x6f, 0x6e] = true := by decide +kernel
/-- DiagnosticInformation -/
example : param (do return (Param.newDiagnosticInformation [0x73, 0x6f, 0x6d, 0x65, 0x20, 0x69, 0x6e, 0x66, 0x6f, 0x72, 0x6d, 0x61, 0x74, 0x69, 0x6f, 0x6e])) [0x00, 0x07, 0x00, 0x14, 0x73, 0x6f, 0x6d, 0x65, 0x20, 0x69, 0x6e, 0x66, 0x6f, 0x72, 0x6d, 0x61, 0x74, 0x69, 0x6f, 0x6e] = true := by decide +kernel
/-- CongestionIndications -/
example : param (do return (Param.newCongestionIndications 1)) [0x02, 0x05, 0x00, 0x08, 0x00, 0x00, 0x00, 0x01] = true := by decide +kernel
/-- LocalRoutingKeyIdentifier -/
example : param (do return (Param.newLocalRoutingKeyIdentifier 1)) [0x02, 0x0a, 0x00, 0x08, 0x00, 0x00, 0x00, 0x01] = true := by decide +kernel
/-- DestinationPointCode -/
example : param (do return (Param.newDestinationPointCode 1)) [0x02, 0x0b, 0x00, 0x08, 0x00, 0x00, 0x00, 0x01] = true := by decide +kernel
/-- OriginatingPointCodeList -/
example : param (do return (Param.newOriginatingPointCodeList [1, 2, 3])) [0x02, 0x0e, 0x00, 0x10, 0x00, 0x00, 0x00, 0x01, 0x00, 0x00, 0x00, 0x02, 0x00, 0x00, 0x00, 0x03] = true := by decide +kernel
/-- ServiceIndicators -/
example : param (do return (Param.newServiceIndicators [1, 2, 3])) [0x02, 0x0c, 0x00, 0x08, 0x01, 0x02, 0x03, 0x00] = true := by decide +kernel
/-- RegistrationStatus -/
example : param (do return (Param.newRegistrationStatus 1)) [0x02, 0x12, 0x00, 0x08, 0x00, 0x00, 0x00, 0x01] = true := by decide +kernel
/-- DeregistrationStatus -/
example : param (do return (Param.newDeregistrationStatus 1)) [0x02, 0x13, 0x00, 0x08, 0x00, 0x00, 0x00, 0x01] = true := by decide +kernel
/-- Generic -/
example : param (do return (Param.new 1 [0xde, 0xad, 0xbe, 0xef])) [0x00, 0x01, 0x00, 0x08, 0xde, 0xad, 0xbe, 0xef] = true := by decide +kernel
/-- ProtocolData -/
example : param (do let x0 ← Param.newProtocolData 1 2 3 1 0 1 [0xde, 0xad, 0xbe, 0xef]; return x0) [0x02, 0x10, 0x00, 0x14, 0x00, 0x00, 0x00, 0x01, 0x00, 0x00, 0x00, 0x02, 0x03, 0x01, 0x00, 0x01, 0xde, 0xad, 0xbe, 0xef] = true := by decide +kernel
/-- RegistrationResult -/
example : param (do let x0 ← Param.newRegistrationResult ⟨(some (Param.newLocalRoutingKeyIdentifier 1)), (some (Param.newRegistrationStatus 1)), (some (Param.newRoutingContext [1]))⟩; return x0) [0x02, 0x08, 0x00, 0x1c, 0x02, 0x0a, 0x00, 0x08, 0x00, 0x00, 0x00, 0x01, 0x02, 0x12, 0x00, 0x08, 0x00, 0x00, 0x00, 0x01, 0x00, 0x06, 0x00, 0x08, 0x00, 0x00, 0x00, 0x01] = true := by decide +kernel
/-- DeregistrationResult -/
example : param (do let x0 ← Param.newDeregistrationResult ⟨(some (Param.newRoutingContext [1])), (some (Param.newDeregistrationStatus 1))⟩; return x0) [0x02, 0x09, 0x00, 0x14, 0x00, 0x06, 0x00, 0x08, 0x00, 0x00, 0x00, 0x01, 0x02, 0x13, 0x00, 0x08, 0x00, 0x00, 0x00, 0x01] = true := by decide +kernel

-- TestParseMultiParams, messages/params/params_test.go:246
/-- rc-generic -/
example : parseMultiParams [0x00, 0x06, 0x00, 0x08, 0x00, 0x00, 0x00, 0x01, 0x00, 0x01, 0x00, 0x08, 0xde, 0xad, 0xbe, 0xef] = .ok [(Param.newRoutingContext [1]), (Param.new 1 [0xde, 0xad, 0xbe, 0xef])] := by decide +kernel

-- TestParseMalformed, messages/params/params_test.go:278
example : Param.parse [0x00] = .err .paramTooShortToParse ∧ parseMultiParams [0x00] = .err .paramTooShortToParse := by decide +kernel
example : Param.parse [0x00, 0x00] = .err .paramTooShortToParse ∧ parseMultiParams [0x00, 0x00] = .err .paramTooShortToParse := by decide +kernel
example : Param.parse [0x00, 0x00, 0x00] = .err .paramTooShortToParse ∧ parseMultiParams [0x00, 0x00, 0x00] = .err .paramTooShortToParse := by decide +kernel
example : Param.parse [0x00, 0x00, 0x00, 0x00] = .err .paramInvalidLength ∧ parseMultiParams [0x00, 0x00, 0x00, 0x00] = .err .paramInvalidLength := by decide +kernel

-- TestConvertPointCode, pc/pc_test.go:16
/-- 1234/3-8-3 to 4-3-7 -/
example : pointCode 1234 Pc.variant383 Pc.variant437 [0x30, 0x2d, 0x31, 0x35, 0x34, 0x2d, 0x32] [0x31, 0x2d, 0x31, 0x2d, 0x38, 0x32] = true := by decide +kernel
/-- 0xffffffff/3-8-3 to 4-3-7 -/
example : pointCode 4294967295 Pc.variant383 Pc.variant437 [0x37, 0x2d, 0x32, 0x35, 0x35, 0x2d, 0x37] [0x31, 0x35, 0x2d, 0x37, 0x2d, 0x31, 0x32, 0x37] = true := by decide +kernel
/-- 0/3-8-3 to 4-3-7 -/
example : pointCode 0 Pc.variant383 Pc.variant437 [0x30, 0x2d, 0x30, 0x2d, 0x30] [0x30, 0x2d, 0x30, 0x2d, 0x30] = true := by decide +kernel

end M3.Tests
