import Verif.Model.Message
import Verif.Lemmas.Codec

/-! Each typed message is an instance of `Codec`. Written by `tools/gen_message_sum.py`. -/

namespace M3

open Msg

instance : Codec Error where
  tags := [Tag.errorCode, Tag.routingContext, Tag.networkAppearance, Tag.affectedPointCode, Tag.diagnosticInformation]
  bad := .msgInvalidParameter
  hdr m := m.header
  setHdr m h := { m with header := h }
  flds m := [m.errorCode, m.routingContext, m.networkAppearance, m.affectedPointCode, m.diagnosticInformation]
  setFld m i p := match i with
    | 0 => { m with errorCode := some p }
    | 1 => { m with routingContext := some p }
    | 2 => { m with networkAppearance := some p }
    | 3 => { m with affectedPointCode := some p }
    | 4 => { m with diagnosticInformation := some p }
    | _ => m
  aux m := none
  zero := Error.zero
  marshalLen := Error.marshalLen
  marshalTo := Error.marshalTo
  marshalBinary := Error.marshalBinary
  setParam := Error.setParam
  setParams := Error.setParams
  unmarshalBinary := Error.unmarshalBinary
  ext a b h1 h2 h3 := by cases a; cases b; simp_all
  tags_nodup := by decide
  flds_length _ := rfl
  hdr_setHdr _ _ := rfl
  flds_setHdr _ _ := rfl
  aux_setHdr _ _ := rfl
  hdr_setFld m i p := by rcases i with _ | _ | _ | _ | _ | _ <;> rfl
  flds_setFld m i p := by rcases i with _ | _ | _ | _ | _ | _ <;> rfl
  aux_setFld m i p := by rcases i with _ | _ | _ | _ | _ | _ <;> rfl
  flds_zero := rfl
  aux_zero := rfl
  marshalLen_eq _ := rfl
  marshalTo_eq m b := by
    unfold Error.marshalTo
    split
    · rfl
    · simp only [putParams, bind_assoc_res, Res.bind_ok]
      rfl
  marshalBinary_eq _ := rfl
  setParam_eq m p := by
    simp only [Error.setParam, tagIdx]
    repeat' split
    all_goals simp_all
  setParams_nil _ := rfl
  setParams_cons _ _ _ := rfl
  unmarshalBinary_eq _ _ := rfl

instance : Codec Notify where
  tags := [Tag.status, Tag.aspIdentifier, Tag.routingContext, Tag.infoString]
  bad := .msgInvalidParameter
  hdr m := m.header
  setHdr m h := { m with header := h }
  flds m := [m.status, m.aspIdentifier, m.routingContext, m.infoString]
  setFld m i p := match i with
    | 0 => { m with status := some p }
    | 1 => { m with aspIdentifier := some p }
    | 2 => { m with routingContext := some p }
    | 3 => { m with infoString := some p }
    | _ => m
  aux m := none
  zero := Notify.zero
  marshalLen := Notify.marshalLen
  marshalTo := Notify.marshalTo
  marshalBinary := Notify.marshalBinary
  setParam := Notify.setParam
  setParams := Notify.setParams
  unmarshalBinary := Notify.unmarshalBinary
  ext a b h1 h2 h3 := by cases a; cases b; simp_all
  tags_nodup := by decide
  flds_length _ := rfl
  hdr_setHdr _ _ := rfl
  flds_setHdr _ _ := rfl
  aux_setHdr _ _ := rfl
  hdr_setFld m i p := by rcases i with _ | _ | _ | _ | _ <;> rfl
  flds_setFld m i p := by rcases i with _ | _ | _ | _ | _ <;> rfl
  aux_setFld m i p := by rcases i with _ | _ | _ | _ | _ <;> rfl
  flds_zero := rfl
  aux_zero := rfl
  marshalLen_eq _ := rfl
  marshalTo_eq m b := by
    unfold Notify.marshalTo
    split
    · rfl
    · simp only [putParams, bind_assoc_res, Res.bind_ok]
      rfl
  marshalBinary_eq _ := rfl
  setParam_eq m p := by
    simp only [Notify.setParam, tagIdx]
    repeat' split
    all_goals simp_all
  setParams_nil _ := rfl
  setParams_cons _ _ _ := rfl
  unmarshalBinary_eq _ _ := rfl

instance : Codec Data where
  tags := [Tag.networkAppearance, Tag.routingContext, Tag.protocolData, Tag.correlationID]
  bad := .msgInvalidParameter
  hdr m := m.header
  setHdr m h := { m with header := h }
  flds m := [m.networkAppearance, m.routingContext, m.protocolData, m.correlationID]
  setFld m i p := match i with
    | 0 => { m with networkAppearance := some p }
    | 1 => { m with routingContext := some p }
    | 2 => { m with protocolData := some p }
    | 3 => { m with correlationID := some p }
    | _ => m
  aux m := none
  zero := Data.zero
  marshalLen := Data.marshalLen
  marshalTo := Data.marshalTo
  marshalBinary := Data.marshalBinary
  setParam := Data.setParam
  setParams := Data.setParams
  unmarshalBinary := Data.unmarshalBinary
  ext a b h1 h2 h3 := by cases a; cases b; simp_all
  tags_nodup := by decide
  flds_length _ := rfl
  hdr_setHdr _ _ := rfl
  flds_setHdr _ _ := rfl
  aux_setHdr _ _ := rfl
  hdr_setFld m i p := by rcases i with _ | _ | _ | _ | _ <;> rfl
  flds_setFld m i p := by rcases i with _ | _ | _ | _ | _ <;> rfl
  aux_setFld m i p := by rcases i with _ | _ | _ | _ | _ <;> rfl
  flds_zero := rfl
  aux_zero := rfl
  marshalLen_eq _ := rfl
  marshalTo_eq m b := by
    unfold Data.marshalTo
    split
    · rfl
    · simp only [putParams, bind_assoc_res, Res.bind_ok]
      rfl
  marshalBinary_eq _ := rfl
  setParam_eq m p := by
    simp only [Data.setParam, tagIdx]
    repeat' split
    all_goals simp_all
  setParams_nil _ := rfl
  setParams_cons _ _ _ := rfl
  unmarshalBinary_eq _ _ := rfl

instance : Codec DestinationUnavailable where
  tags := [Tag.networkAppearance, Tag.routingContext, Tag.affectedPointCode, Tag.infoString]
  bad := (.wrapped "DUNA" .msgInvalidParameter)
  hdr m := m.header
  setHdr m h := { m with header := h }
  flds m := [m.networkAppearance, m.routingContext, m.affectedPointCode, m.infoString]
  setFld m i p := match i with
    | 0 => { m with networkAppearance := some p }
    | 1 => { m with routingContext := some p }
    | 2 => { m with affectedPointCode := some p }
    | 3 => { m with infoString := some p }
    | _ => m
  aux m := none
  zero := DestinationUnavailable.zero
  marshalLen := DestinationUnavailable.marshalLen
  marshalTo := DestinationUnavailable.marshalTo
  marshalBinary := DestinationUnavailable.marshalBinary
  setParam := DestinationUnavailable.setParam
  setParams := DestinationUnavailable.setParams
  unmarshalBinary := DestinationUnavailable.unmarshalBinary
  ext a b h1 h2 h3 := by cases a; cases b; simp_all
  tags_nodup := by decide
  flds_length _ := rfl
  hdr_setHdr _ _ := rfl
  flds_setHdr _ _ := rfl
  aux_setHdr _ _ := rfl
  hdr_setFld m i p := by rcases i with _ | _ | _ | _ | _ <;> rfl
  flds_setFld m i p := by rcases i with _ | _ | _ | _ | _ <;> rfl
  aux_setFld m i p := by rcases i with _ | _ | _ | _ | _ <;> rfl
  flds_zero := rfl
  aux_zero := rfl
  marshalLen_eq _ := rfl
  marshalTo_eq m b := by
    unfold DestinationUnavailable.marshalTo
    split
    · rfl
    · simp only [putParams, bind_assoc_res, Res.bind_ok]
      rfl
  marshalBinary_eq _ := rfl
  setParam_eq m p := by
    simp only [DestinationUnavailable.setParam, tagIdx]
    repeat' split
    all_goals simp_all
  setParams_nil _ := rfl
  setParams_cons _ _ _ := rfl
  unmarshalBinary_eq _ _ := rfl

instance : Codec DestinationAvailable where
  tags := [Tag.networkAppearance, Tag.routingContext, Tag.affectedPointCode, Tag.infoString]
  bad := (.wrapped "DAVA" .msgInvalidParameter)
  hdr m := m.header
  setHdr m h := { m with header := h }
  flds m := [m.networkAppearance, m.routingContext, m.affectedPointCode, m.infoString]
  setFld m i p := match i with
    | 0 => { m with networkAppearance := some p }
    | 1 => { m with routingContext := some p }
    | 2 => { m with affectedPointCode := some p }
    | 3 => { m with infoString := some p }
    | _ => m
  aux m := none
  zero := DestinationAvailable.zero
  marshalLen := DestinationAvailable.marshalLen
  marshalTo := DestinationAvailable.marshalTo
  marshalBinary := DestinationAvailable.marshalBinary
  setParam := DestinationAvailable.setParam
  setParams := DestinationAvailable.setParams
  unmarshalBinary := DestinationAvailable.unmarshalBinary
  ext a b h1 h2 h3 := by cases a; cases b; simp_all
  tags_nodup := by decide
  flds_length _ := rfl
  hdr_setHdr _ _ := rfl
  flds_setHdr _ _ := rfl
  aux_setHdr _ _ := rfl
  hdr_setFld m i p := by rcases i with _ | _ | _ | _ | _ <;> rfl
  flds_setFld m i p := by rcases i with _ | _ | _ | _ | _ <;> rfl
  aux_setFld m i p := by rcases i with _ | _ | _ | _ | _ <;> rfl
  flds_zero := rfl
  aux_zero := rfl
  marshalLen_eq _ := rfl
  marshalTo_eq m b := by
    unfold DestinationAvailable.marshalTo
    split
    · rfl
    · simp only [putParams, bind_assoc_res, Res.bind_ok]
      rfl
  marshalBinary_eq _ := rfl
  setParam_eq m p := by
    simp only [DestinationAvailable.setParam, tagIdx]
    repeat' split
    all_goals simp_all
  setParams_nil _ := rfl
  setParams_cons _ _ _ := rfl
  unmarshalBinary_eq _ _ := rfl

instance : Codec DestinationStateAudit where
  tags := [Tag.networkAppearance, Tag.routingContext, Tag.affectedPointCode, Tag.infoString]
  bad := (.wrapped "DAUD" .msgInvalidParameter)
  hdr m := m.header
  setHdr m h := { m with header := h }
  flds m := [m.networkAppearance, m.routingContext, m.affectedPointCode, m.infoString]
  setFld m i p := match i with
    | 0 => { m with networkAppearance := some p }
    | 1 => { m with routingContext := some p }
    | 2 => { m with affectedPointCode := some p }
    | 3 => { m with infoString := some p }
    | _ => m
  aux m := none
  zero := DestinationStateAudit.zero
  marshalLen := DestinationStateAudit.marshalLen
  marshalTo := DestinationStateAudit.marshalTo
  marshalBinary := DestinationStateAudit.marshalBinary
  setParam := DestinationStateAudit.setParam
  setParams := DestinationStateAudit.setParams
  unmarshalBinary := DestinationStateAudit.unmarshalBinary
  ext a b h1 h2 h3 := by cases a; cases b; simp_all
  tags_nodup := by decide
  flds_length _ := rfl
  hdr_setHdr _ _ := rfl
  flds_setHdr _ _ := rfl
  aux_setHdr _ _ := rfl
  hdr_setFld m i p := by rcases i with _ | _ | _ | _ | _ <;> rfl
  flds_setFld m i p := by rcases i with _ | _ | _ | _ | _ <;> rfl
  aux_setFld m i p := by rcases i with _ | _ | _ | _ | _ <;> rfl
  flds_zero := rfl
  aux_zero := rfl
  marshalLen_eq _ := rfl
  marshalTo_eq m b := by
    unfold DestinationStateAudit.marshalTo
    split
    · rfl
    · simp only [putParams, bind_assoc_res, Res.bind_ok]
      rfl
  marshalBinary_eq _ := rfl
  setParam_eq m p := by
    simp only [DestinationStateAudit.setParam, tagIdx]
    repeat' split
    all_goals simp_all
  setParams_nil _ := rfl
  setParams_cons _ _ _ := rfl
  unmarshalBinary_eq _ _ := rfl

instance : Codec SignallingCongestion where
  tags := [Tag.networkAppearance, Tag.routingContext, Tag.affectedPointCode, Tag.concernedDestination, Tag.congestionIndications, Tag.infoString]
  bad := .msgInvalidParameter
  hdr m := m.header
  setHdr m h := { m with header := h }
  flds m := [m.networkAppearance, m.routingContext, m.affectedPointCode, m.concernedDestination, m.congestionIndications, m.infoString]
  setFld m i p := match i with
    | 0 => { m with networkAppearance := some p }
    | 1 => { m with routingContext := some p }
    | 2 => { m with affectedPointCode := some p }
    | 3 => { m with concernedDestination := some p }
    | 4 => { m with congestionIndications := some p }
    | 5 => { m with infoString := some p }
    | _ => m
  aux m := none
  zero := SignallingCongestion.zero
  marshalLen := SignallingCongestion.marshalLen
  marshalTo := SignallingCongestion.marshalTo
  marshalBinary := SignallingCongestion.marshalBinary
  setParam := SignallingCongestion.setParam
  setParams := SignallingCongestion.setParams
  unmarshalBinary := SignallingCongestion.unmarshalBinary
  ext a b h1 h2 h3 := by cases a; cases b; simp_all
  tags_nodup := by decide
  flds_length _ := rfl
  hdr_setHdr _ _ := rfl
  flds_setHdr _ _ := rfl
  aux_setHdr _ _ := rfl
  hdr_setFld m i p := by rcases i with _ | _ | _ | _ | _ | _ | _ <;> rfl
  flds_setFld m i p := by rcases i with _ | _ | _ | _ | _ | _ | _ <;> rfl
  aux_setFld m i p := by rcases i with _ | _ | _ | _ | _ | _ | _ <;> rfl
  flds_zero := rfl
  aux_zero := rfl
  marshalLen_eq _ := rfl
  marshalTo_eq m b := by
    unfold SignallingCongestion.marshalTo
    split
    · rfl
    · simp only [putParams, bind_assoc_res, Res.bind_ok]
      rfl
  marshalBinary_eq _ := rfl
  setParam_eq m p := by
    simp only [SignallingCongestion.setParam, tagIdx]
    repeat' split
    all_goals simp_all
  setParams_nil _ := rfl
  setParams_cons _ _ _ := rfl
  unmarshalBinary_eq _ _ := rfl

instance : Codec DestinationUserPartUnavailable where
  tags := [Tag.networkAppearance, Tag.routingContext, Tag.affectedPointCode, Tag.userCause, Tag.infoString]
  bad := (.wrapped "DUPU" .msgInvalidParameter)
  hdr m := m.header
  setHdr m h := { m with header := h }
  flds m := [m.networkAppearance, m.routingContext, m.affectedPointCode, m.userCause, m.infoString]
  setFld m i p := match i with
    | 0 => { m with networkAppearance := some p }
    | 1 => { m with routingContext := some p }
    | 2 => { m with affectedPointCode := some p }
    | 3 => { m with userCause := some p }
    | 4 => { m with infoString := some p }
    | _ => m
  aux m := none
  zero := DestinationUserPartUnavailable.zero
  marshalLen := DestinationUserPartUnavailable.marshalLen
  marshalTo := DestinationUserPartUnavailable.marshalTo
  marshalBinary := DestinationUserPartUnavailable.marshalBinary
  setParam := DestinationUserPartUnavailable.setParam
  setParams := DestinationUserPartUnavailable.setParams
  unmarshalBinary := DestinationUserPartUnavailable.unmarshalBinary
  ext a b h1 h2 h3 := by cases a; cases b; simp_all
  tags_nodup := by decide
  flds_length _ := rfl
  hdr_setHdr _ _ := rfl
  flds_setHdr _ _ := rfl
  aux_setHdr _ _ := rfl
  hdr_setFld m i p := by rcases i with _ | _ | _ | _ | _ | _ <;> rfl
  flds_setFld m i p := by rcases i with _ | _ | _ | _ | _ | _ <;> rfl
  aux_setFld m i p := by rcases i with _ | _ | _ | _ | _ | _ <;> rfl
  flds_zero := rfl
  aux_zero := rfl
  marshalLen_eq _ := rfl
  marshalTo_eq m b := by
    unfold DestinationUserPartUnavailable.marshalTo
    split
    · rfl
    · simp only [putParams, bind_assoc_res, Res.bind_ok]
      rfl
  marshalBinary_eq _ := rfl
  setParam_eq m p := by
    simp only [DestinationUserPartUnavailable.setParam, tagIdx]
    repeat' split
    all_goals simp_all
  setParams_nil _ := rfl
  setParams_cons _ _ _ := rfl
  unmarshalBinary_eq _ _ := rfl

instance : Codec DestinationRestricted where
  tags := [Tag.networkAppearance, Tag.routingContext, Tag.affectedPointCode, Tag.infoString]
  bad := (.wrapped "DRST" .msgInvalidParameter)
  hdr m := m.header
  setHdr m h := { m with header := h }
  flds m := [m.networkAppearance, m.routingContext, m.affectedPointCode, m.infoString]
  setFld m i p := match i with
    | 0 => { m with networkAppearance := some p }
    | 1 => { m with routingContext := some p }
    | 2 => { m with affectedPointCode := some p }
    | 3 => { m with infoString := some p }
    | _ => m
  aux m := none
  zero := DestinationRestricted.zero
  marshalLen := DestinationRestricted.marshalLen
  marshalTo := DestinationRestricted.marshalTo
  marshalBinary := DestinationRestricted.marshalBinary
  setParam := DestinationRestricted.setParam
  setParams := DestinationRestricted.setParams
  unmarshalBinary := DestinationRestricted.unmarshalBinary
  ext a b h1 h2 h3 := by cases a; cases b; simp_all
  tags_nodup := by decide
  flds_length _ := rfl
  hdr_setHdr _ _ := rfl
  flds_setHdr _ _ := rfl
  aux_setHdr _ _ := rfl
  hdr_setFld m i p := by rcases i with _ | _ | _ | _ | _ <;> rfl
  flds_setFld m i p := by rcases i with _ | _ | _ | _ | _ <;> rfl
  aux_setFld m i p := by rcases i with _ | _ | _ | _ | _ <;> rfl
  flds_zero := rfl
  aux_zero := rfl
  marshalLen_eq _ := rfl
  marshalTo_eq m b := by
    unfold DestinationRestricted.marshalTo
    split
    · rfl
    · simp only [putParams, bind_assoc_res, Res.bind_ok]
      rfl
  marshalBinary_eq _ := rfl
  setParam_eq m p := by
    simp only [DestinationRestricted.setParam, tagIdx]
    repeat' split
    all_goals simp_all
  setParams_nil _ := rfl
  setParams_cons _ _ _ := rfl
  unmarshalBinary_eq _ _ := rfl

instance : Codec AspUp where
  tags := [Tag.aspIdentifier, Tag.infoString]
  bad := .msgInvalidParameter
  hdr m := m.header
  setHdr m h := { m with header := h }
  flds m := [m.aspIdentifier, m.infoString]
  setFld m i p := match i with
    | 0 => { m with aspIdentifier := some p }
    | 1 => { m with infoString := some p }
    | _ => m
  aux m := none
  zero := AspUp.zero
  marshalLen := AspUp.marshalLen
  marshalTo := AspUp.marshalTo
  marshalBinary := AspUp.marshalBinary
  setParam := AspUp.setParam
  setParams := AspUp.setParams
  unmarshalBinary := AspUp.unmarshalBinary
  ext a b h1 h2 h3 := by cases a; cases b; simp_all
  tags_nodup := by decide
  flds_length _ := rfl
  hdr_setHdr _ _ := rfl
  flds_setHdr _ _ := rfl
  aux_setHdr _ _ := rfl
  hdr_setFld m i p := by rcases i with _ | _ | _ <;> rfl
  flds_setFld m i p := by rcases i with _ | _ | _ <;> rfl
  aux_setFld m i p := by rcases i with _ | _ | _ <;> rfl
  flds_zero := rfl
  aux_zero := rfl
  marshalLen_eq _ := rfl
  marshalTo_eq m b := by
    unfold AspUp.marshalTo
    split
    · rfl
    · simp only [putParams, bind_assoc_res, Res.bind_ok]
      rfl
  marshalBinary_eq _ := rfl
  setParam_eq m p := by
    simp only [AspUp.setParam, tagIdx]
    repeat' split
    all_goals simp_all
  setParams_nil _ := rfl
  setParams_cons _ _ _ := rfl
  unmarshalBinary_eq _ _ := rfl

instance : Codec AspDown where
  tags := [Tag.infoString]
  bad := .msgInvalidParameter
  hdr m := m.header
  setHdr m h := { m with header := h }
  flds m := [m.infoString]
  setFld m i p := match i with
    | 0 => { m with infoString := some p }
    | _ => m
  aux m := m.aspIdentifier
  zero := AspDown.zero
  marshalLen := AspDown.marshalLen
  marshalTo := AspDown.marshalTo
  marshalBinary := AspDown.marshalBinary
  setParam := AspDown.setParam
  setParams := AspDown.setParams
  unmarshalBinary := AspDown.unmarshalBinary
  ext a b h1 h2 h3 := by cases a; cases b; simp_all
  tags_nodup := by decide
  flds_length _ := rfl
  hdr_setHdr _ _ := rfl
  flds_setHdr _ _ := rfl
  aux_setHdr _ _ := rfl
  hdr_setFld m i p := by rcases i with _ | _ <;> rfl
  flds_setFld m i p := by rcases i with _ | _ <;> rfl
  aux_setFld m i p := by rcases i with _ | _ <;> rfl
  flds_zero := rfl
  aux_zero := rfl
  marshalLen_eq _ := rfl
  marshalTo_eq m b := by
    unfold AspDown.marshalTo
    split
    · rfl
    · simp only [putParams, bind_assoc_res, Res.bind_ok]
      rfl
  marshalBinary_eq _ := rfl
  setParam_eq m p := by
    simp only [AspDown.setParam, tagIdx]
    repeat' split
    all_goals simp_all
  setParams_nil _ := rfl
  setParams_cons _ _ _ := rfl
  unmarshalBinary_eq _ _ := rfl

instance : Codec Heartbeat where
  tags := [Tag.heartbeatData]
  bad := .msgInvalidParameter
  hdr m := m.header
  setHdr m h := { m with header := h }
  flds m := [m.heartbeatData]
  setFld m i p := match i with
    | 0 => { m with heartbeatData := some p }
    | _ => m
  aux m := m.aspIdentifier
  zero := Heartbeat.zero
  marshalLen := Heartbeat.marshalLen
  marshalTo := Heartbeat.marshalTo
  marshalBinary := Heartbeat.marshalBinary
  setParam := Heartbeat.setParam
  setParams := Heartbeat.setParams
  unmarshalBinary := Heartbeat.unmarshalBinary
  ext a b h1 h2 h3 := by cases a; cases b; simp_all
  tags_nodup := by decide
  flds_length _ := rfl
  hdr_setHdr _ _ := rfl
  flds_setHdr _ _ := rfl
  aux_setHdr _ _ := rfl
  hdr_setFld m i p := by rcases i with _ | _ <;> rfl
  flds_setFld m i p := by rcases i with _ | _ <;> rfl
  aux_setFld m i p := by rcases i with _ | _ <;> rfl
  flds_zero := rfl
  aux_zero := rfl
  marshalLen_eq _ := rfl
  marshalTo_eq m b := by
    unfold Heartbeat.marshalTo
    split
    · rfl
    · simp only [putParams, bind_assoc_res, Res.bind_ok]
      rfl
  marshalBinary_eq _ := rfl
  setParam_eq m p := by
    simp only [Heartbeat.setParam, tagIdx]
    repeat' split
    all_goals simp_all
  setParams_nil _ := rfl
  setParams_cons _ _ _ := rfl
  unmarshalBinary_eq _ _ := rfl

instance : Codec AspUpAck where
  tags := [Tag.aspIdentifier, Tag.infoString]
  bad := .msgInvalidParameter
  hdr m := m.header
  setHdr m h := { m with header := h }
  flds m := [m.aspIdentifier, m.infoString]
  setFld m i p := match i with
    | 0 => { m with aspIdentifier := some p }
    | 1 => { m with infoString := some p }
    | _ => m
  aux m := none
  zero := AspUpAck.zero
  marshalLen := AspUpAck.marshalLen
  marshalTo := AspUpAck.marshalTo
  marshalBinary := AspUpAck.marshalBinary
  setParam := AspUpAck.setParam
  setParams := AspUpAck.setParams
  unmarshalBinary := AspUpAck.unmarshalBinary
  ext a b h1 h2 h3 := by cases a; cases b; simp_all
  tags_nodup := by decide
  flds_length _ := rfl
  hdr_setHdr _ _ := rfl
  flds_setHdr _ _ := rfl
  aux_setHdr _ _ := rfl
  hdr_setFld m i p := by rcases i with _ | _ | _ <;> rfl
  flds_setFld m i p := by rcases i with _ | _ | _ <;> rfl
  aux_setFld m i p := by rcases i with _ | _ | _ <;> rfl
  flds_zero := rfl
  aux_zero := rfl
  marshalLen_eq _ := rfl
  marshalTo_eq m b := by
    unfold AspUpAck.marshalTo
    split
    · rfl
    · simp only [putParams, bind_assoc_res, Res.bind_ok]
      rfl
  marshalBinary_eq _ := rfl
  setParam_eq m p := by
    simp only [AspUpAck.setParam, tagIdx]
    repeat' split
    all_goals simp_all
  setParams_nil _ := rfl
  setParams_cons _ _ _ := rfl
  unmarshalBinary_eq _ _ := rfl

instance : Codec AspDownAck where
  tags := [Tag.infoString]
  bad := .msgInvalidParameter
  hdr m := m.header
  setHdr m h := { m with header := h }
  flds m := [m.infoString]
  setFld m i p := match i with
    | 0 => { m with infoString := some p }
    | _ => m
  aux m := m.aspIdentifier
  zero := AspDownAck.zero
  marshalLen := AspDownAck.marshalLen
  marshalTo := AspDownAck.marshalTo
  marshalBinary := AspDownAck.marshalBinary
  setParam := AspDownAck.setParam
  setParams := AspDownAck.setParams
  unmarshalBinary := AspDownAck.unmarshalBinary
  ext a b h1 h2 h3 := by cases a; cases b; simp_all
  tags_nodup := by decide
  flds_length _ := rfl
  hdr_setHdr _ _ := rfl
  flds_setHdr _ _ := rfl
  aux_setHdr _ _ := rfl
  hdr_setFld m i p := by rcases i with _ | _ <;> rfl
  flds_setFld m i p := by rcases i with _ | _ <;> rfl
  aux_setFld m i p := by rcases i with _ | _ <;> rfl
  flds_zero := rfl
  aux_zero := rfl
  marshalLen_eq _ := rfl
  marshalTo_eq m b := by
    unfold AspDownAck.marshalTo
    split
    · rfl
    · simp only [putParams, bind_assoc_res, Res.bind_ok]
      rfl
  marshalBinary_eq _ := rfl
  setParam_eq m p := by
    simp only [AspDownAck.setParam, tagIdx]
    repeat' split
    all_goals simp_all
  setParams_nil _ := rfl
  setParams_cons _ _ _ := rfl
  unmarshalBinary_eq _ _ := rfl

instance : Codec HeartbeatAck where
  tags := [Tag.heartbeatData]
  bad := .msgInvalidParameter
  hdr m := m.header
  setHdr m h := { m with header := h }
  flds m := [m.heartbeatData]
  setFld m i p := match i with
    | 0 => { m with heartbeatData := some p }
    | _ => m
  aux m := m.aspIdentifier
  zero := HeartbeatAck.zero
  marshalLen := HeartbeatAck.marshalLen
  marshalTo := HeartbeatAck.marshalTo
  marshalBinary := HeartbeatAck.marshalBinary
  setParam := HeartbeatAck.setParam
  setParams := HeartbeatAck.setParams
  unmarshalBinary := HeartbeatAck.unmarshalBinary
  ext a b h1 h2 h3 := by cases a; cases b; simp_all
  tags_nodup := by decide
  flds_length _ := rfl
  hdr_setHdr _ _ := rfl
  flds_setHdr _ _ := rfl
  aux_setHdr _ _ := rfl
  hdr_setFld m i p := by rcases i with _ | _ <;> rfl
  flds_setFld m i p := by rcases i with _ | _ <;> rfl
  aux_setFld m i p := by rcases i with _ | _ <;> rfl
  flds_zero := rfl
  aux_zero := rfl
  marshalLen_eq _ := rfl
  marshalTo_eq m b := by
    unfold HeartbeatAck.marshalTo
    split
    · rfl
    · simp only [putParams, bind_assoc_res, Res.bind_ok]
      rfl
  marshalBinary_eq _ := rfl
  setParam_eq m p := by
    simp only [HeartbeatAck.setParam, tagIdx]
    repeat' split
    all_goals simp_all
  setParams_nil _ := rfl
  setParams_cons _ _ _ := rfl
  unmarshalBinary_eq _ _ := rfl

instance : Codec AspActive where
  tags := [Tag.trafficModeType, Tag.routingContext, Tag.infoString]
  bad := .msgInvalidParameter
  hdr m := m.header
  setHdr m h := { m with header := h }
  flds m := [m.trafficModeType, m.routingContext, m.infoString]
  setFld m i p := match i with
    | 0 => { m with trafficModeType := some p }
    | 1 => { m with routingContext := some p }
    | 2 => { m with infoString := some p }
    | _ => m
  aux m := none
  zero := AspActive.zero
  marshalLen := AspActive.marshalLen
  marshalTo := AspActive.marshalTo
  marshalBinary := AspActive.marshalBinary
  setParam := AspActive.setParam
  setParams := AspActive.setParams
  unmarshalBinary := AspActive.unmarshalBinary
  ext a b h1 h2 h3 := by cases a; cases b; simp_all
  tags_nodup := by decide
  flds_length _ := rfl
  hdr_setHdr _ _ := rfl
  flds_setHdr _ _ := rfl
  aux_setHdr _ _ := rfl
  hdr_setFld m i p := by rcases i with _ | _ | _ | _ <;> rfl
  flds_setFld m i p := by rcases i with _ | _ | _ | _ <;> rfl
  aux_setFld m i p := by rcases i with _ | _ | _ | _ <;> rfl
  flds_zero := rfl
  aux_zero := rfl
  marshalLen_eq _ := rfl
  marshalTo_eq m b := by
    unfold AspActive.marshalTo
    split
    · rfl
    · simp only [putParams, bind_assoc_res, Res.bind_ok]
      rfl
  marshalBinary_eq _ := rfl
  setParam_eq m p := by
    simp only [AspActive.setParam, tagIdx]
    repeat' split
    all_goals simp_all
  setParams_nil _ := rfl
  setParams_cons _ _ _ := rfl
  unmarshalBinary_eq _ _ := rfl

instance : Codec AspInactive where
  tags := [Tag.routingContext, Tag.infoString]
  bad := .msgInvalidParameter
  hdr m := m.header
  setHdr m h := { m with header := h }
  flds m := [m.routingContext, m.infoString]
  setFld m i p := match i with
    | 0 => { m with routingContext := some p }
    | 1 => { m with infoString := some p }
    | _ => m
  aux m := none
  zero := AspInactive.zero
  marshalLen := AspInactive.marshalLen
  marshalTo := AspInactive.marshalTo
  marshalBinary := AspInactive.marshalBinary
  setParam := AspInactive.setParam
  setParams := AspInactive.setParams
  unmarshalBinary := AspInactive.unmarshalBinary
  ext a b h1 h2 h3 := by cases a; cases b; simp_all
  tags_nodup := by decide
  flds_length _ := rfl
  hdr_setHdr _ _ := rfl
  flds_setHdr _ _ := rfl
  aux_setHdr _ _ := rfl
  hdr_setFld m i p := by rcases i with _ | _ | _ <;> rfl
  flds_setFld m i p := by rcases i with _ | _ | _ <;> rfl
  aux_setFld m i p := by rcases i with _ | _ | _ <;> rfl
  flds_zero := rfl
  aux_zero := rfl
  marshalLen_eq _ := rfl
  marshalTo_eq m b := by
    unfold AspInactive.marshalTo
    split
    · rfl
    · simp only [putParams, bind_assoc_res, Res.bind_ok]
      rfl
  marshalBinary_eq _ := rfl
  setParam_eq m p := by
    simp only [AspInactive.setParam, tagIdx]
    repeat' split
    all_goals simp_all
  setParams_nil _ := rfl
  setParams_cons _ _ _ := rfl
  unmarshalBinary_eq _ _ := rfl

instance : Codec AspActiveAck where
  tags := [Tag.trafficModeType, Tag.routingContext, Tag.infoString]
  bad := .msgInvalidParameter
  hdr m := m.header
  setHdr m h := { m with header := h }
  flds m := [m.trafficModeType, m.routingContext, m.infoString]
  setFld m i p := match i with
    | 0 => { m with trafficModeType := some p }
    | 1 => { m with routingContext := some p }
    | 2 => { m with infoString := some p }
    | _ => m
  aux m := none
  zero := AspActiveAck.zero
  marshalLen := AspActiveAck.marshalLen
  marshalTo := AspActiveAck.marshalTo
  marshalBinary := AspActiveAck.marshalBinary
  setParam := AspActiveAck.setParam
  setParams := AspActiveAck.setParams
  unmarshalBinary := AspActiveAck.unmarshalBinary
  ext a b h1 h2 h3 := by cases a; cases b; simp_all
  tags_nodup := by decide
  flds_length _ := rfl
  hdr_setHdr _ _ := rfl
  flds_setHdr _ _ := rfl
  aux_setHdr _ _ := rfl
  hdr_setFld m i p := by rcases i with _ | _ | _ | _ <;> rfl
  flds_setFld m i p := by rcases i with _ | _ | _ | _ <;> rfl
  aux_setFld m i p := by rcases i with _ | _ | _ | _ <;> rfl
  flds_zero := rfl
  aux_zero := rfl
  marshalLen_eq _ := rfl
  marshalTo_eq m b := by
    unfold AspActiveAck.marshalTo
    split
    · rfl
    · simp only [putParams, bind_assoc_res, Res.bind_ok]
      rfl
  marshalBinary_eq _ := rfl
  setParam_eq m p := by
    simp only [AspActiveAck.setParam, tagIdx]
    repeat' split
    all_goals simp_all
  setParams_nil _ := rfl
  setParams_cons _ _ _ := rfl
  unmarshalBinary_eq _ _ := rfl

instance : Codec AspInactiveAck where
  tags := [Tag.routingContext, Tag.infoString]
  bad := .msgInvalidParameter
  hdr m := m.header
  setHdr m h := { m with header := h }
  flds m := [m.routingContext, m.infoString]
  setFld m i p := match i with
    | 0 => { m with routingContext := some p }
    | 1 => { m with infoString := some p }
    | _ => m
  aux m := none
  zero := AspInactiveAck.zero
  marshalLen := AspInactiveAck.marshalLen
  marshalTo := AspInactiveAck.marshalTo
  marshalBinary := AspInactiveAck.marshalBinary
  setParam := AspInactiveAck.setParam
  setParams := AspInactiveAck.setParams
  unmarshalBinary := AspInactiveAck.unmarshalBinary
  ext a b h1 h2 h3 := by cases a; cases b; simp_all
  tags_nodup := by decide
  flds_length _ := rfl
  hdr_setHdr _ _ := rfl
  flds_setHdr _ _ := rfl
  aux_setHdr _ _ := rfl
  hdr_setFld m i p := by rcases i with _ | _ | _ <;> rfl
  flds_setFld m i p := by rcases i with _ | _ | _ <;> rfl
  aux_setFld m i p := by rcases i with _ | _ | _ <;> rfl
  flds_zero := rfl
  aux_zero := rfl
  marshalLen_eq _ := rfl
  marshalTo_eq m b := by
    unfold AspInactiveAck.marshalTo
    split
    · rfl
    · simp only [putParams, bind_assoc_res, Res.bind_ok]
      rfl
  marshalBinary_eq _ := rfl
  setParam_eq m p := by
    simp only [AspInactiveAck.setParam, tagIdx]
    repeat' split
    all_goals simp_all
  setParams_nil _ := rfl
  setParams_cons _ _ _ := rfl
  unmarshalBinary_eq _ _ := rfl

end M3
