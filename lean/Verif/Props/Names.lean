import Verif.Model.Names
import Verif.Model.Constants
import Verif.Spec.Numbers
import Verif.Props.Messages
import Verif.Props.ParamKinds

/- Names of messages and states (C80); exported constants (C81). -/

set_option autoImplicit false

namespace M3

open Spec

/-- C80: every message of a known type is called by the names RFC 4666 gives to its class and type, and everything else is
`Unknown`. -/
theorem c80_names (m : M3UA) : (m.messageClassName, m.messageTypeName) =
    match m.kind with
    | some k => called k.cls k.typ
    | none => ("Unknown", "Unknown") := by
  cases m <;> rfl

theorem names_kinds : ∀ p ∈ messageNames, ∃ k ∈ Kind.all, k.cls = p.1.1 ∧ k.typ = p.1.2 := by decide

theorem type_names : ∀ k k' : Kind, (called k.cls k.typ).2 = (called k'.cls k'.typ).2 → k = k' := by
  have h : ∀ k ∈ Kind.all, ∀ k' ∈ Kind.all, (called k.cls k.typ).2 = (called k'.cls k'.typ).2 → k = k' := by decide +kernel
  exact fun k k' => h k (by cases k <;> decide) k' (by cases k' <;> decide)

theorem type_known : ∀ k : Kind, (called k.cls k.typ).2 ≠ "Unknown" := by
  intro k; cases k <;> decide

/-- C80: the name of a decoded message is that of the class and type octets of the datagram (for octets below 16; see C21 for the
others). -/
theorem c80_parse (b : Bytes) (m : M3UA) (h : M3UA.parse b = .ok m) (hc : (b.getD 2 0).toNat < 16)
    (ht : (b.getD 3 0).toNat < 16) :
    (m.messageClassName, m.messageTypeName) = called (b.getD 2 0).toNat (b.getD 3 0).toNat := by
  rw [c80_names]
  cases hk : m.kind with
  | some k =>
    obtain ⟨h1, h2⟩ := (c21_small b m h hc ht k).mp hk
    rw [h1, h2]
  | none =>
    have hn : ∀ k : Kind, ¬ ((b.getD 2 0).toNat = k.cls ∧ (b.getD 3 0).toNat = k.typ) := fun k hk' => by
      have := (c21_small b m h hc ht k).mpr hk'
      rw [hk] at this; cases this
    generalize (b.getD 2 0).toNat = c at *
    generalize (b.getD 3 0).toNat = t at *
    have : messageNames.lookup (c, t) = none := by
      cases hl : messageNames.lookup (c, t) with
      | none => rfl
      | some n =>
        obtain ⟨l₁, l₂, hm, -⟩ := List.lookup_eq_some_iff.mp hl
        have hmem : ((c, t), n) ∈ messageNames := by rw [hm]; simp
        obtain ⟨k, -, h1, h2⟩ := names_kinds _ hmem
        exact (hn k ⟨h1.symm, h2.symm⟩).elim
    simp only [called, this]

/-- C80: the name tells the type of the message. -/
theorem c80_distinct (m m' : M3UA) (h : m.messageTypeName = m'.messageTypeName) : m.kind = m'.kind := by
  have h1 := congrArg Prod.snd (c80_names m)
  have h2 := congrArg Prod.snd (c80_names m')
  simp only at h1 h2
  rw [h1, h2] at h
  cases hk : m.kind with
  | some k =>
    cases hk' : m'.kind with
    | some k' =>
      rw [hk, hk'] at h
      rw [type_names k k' h]
    | none =>
      rw [hk, hk'] at h
      exact absurd h (type_known k)
  | none =>
    cases hk' : m'.kind with
    | some k' =>
      rw [hk, hk'] at h
      exact absurd h.symm (type_known k')
    | none => rfl

/-- For `c80_parse`: A Heartbeat is called so; a message of an unassigned type is not known. -/
example : (∃ m, M3UA.parse [1, 0, 3, 3, 0, 0, 0, 8] = .ok m ∧ (m.messageClassName, m.messageTypeName) = ("ASPSM", "Heartbeat")) ∧
    ∃ m, M3UA.parse [1, 0, 3, 9, 0, 0, 0, 8] = .ok m ∧ (m.messageClassName, m.messageTypeName) = ("Unknown", "Unknown") :=
  ⟨⟨_, rfl, rfl⟩, _, rfl, rfl⟩

namespace Conn

/-- C80: states print under their own names, and no number that is not a state does. -/
theorem c80_state : stateString St.down.code = "AspDown" ∧ stateString St.inactive.code = "AspInactive" ∧
    stateString St.active.code = "AspActive" ∧ (∀ s s' : St, stateString s.code = stateString s'.code → s = s') ∧
    ∀ n : UInt8, (∀ s : St, n ≠ s.code) ↔ stateString n = "Unknown" := by
  refine ⟨rfl, rfl, rfl, ?_, fun n => ⟨fun h => ?_, fun h s hs => ?_⟩⟩
  · intro s s'
    cases s <;> cases s' <;> decide
  · have h0 := h .down
    have h1 := h .inactive
    have h2 := h .active
    have h3 := h .cdi
    have h4 := h .ri
    simp only [St.code] at h0 h1 h2 h3 h4
    simp [stateString, h0, h1, h2, h3, h4]
  · subst hs
    revert h
    cases s <;> decide

end Conn

/-! ### C81 -/

/-- The block gives every name of the table the number of the table. -/
def Agrees (b : ConstBlock) (t : List (String × Nat)) : Prop := ∀ x ∈ t, b.get x.1 = some x.2

/-- C81: traffic mode types, error codes, status types and information, unavailability causes, registration and deregistration
status have the numbers of RFC 4666. -/
theorem c81_right : Agrees Const.trafficMode trafficModes ∧ Agrees Const.errorCode errorCodes ∧ Agrees Const.statusType statusTypes ∧
    Agrees Const.asState asStates ∧ Agrees Const.otherStatus otherStatuses ∧ Agrees Const.unavailability causes ∧
    Agrees Const.registration registrations ∧ Agrees Const.deregistration deregistrations := by
  unfold Agrees
  decide +kernel

/-- C81: so Notify messages built from these constants carry the right numbers in both halves of the status. -/
theorem c81_status (n : String) (v : Nat) (h : (n, v) ∈ asStates ++ otherStatuses) :
    ∃ w, (Const.asState.get n = some w ∨ Const.otherStatus.get n = some w) ∧
      ViaWire (Param.newStatus (UInt32.ofNat w)) (tlv PName.status.tag (be32 v))
        (fun q => ∃ t i, q.statusType = .ok t ∧ q.statusInfo = .ok i ∧ t.toNat = v / 65536 ∧ i.toNat = v % 65536) := by
  have hv : ∀ x ∈ asStates ++ otherStatuses, (UInt32.ofNat x.2).toNat = x.2 := by decide +kernel
  obtain ⟨-, -, -, h4, h5, -⟩ := c81_right
  have key := c12_status (UInt32.ofNat v)
  rw [hv _ h] at key
  refine ⟨v, ?_, key⟩
  rcases List.mem_append.mp h with h | h
  · exact .inl (h4 _ h)
  · exact .inr (h5 _ h)

/-- The status of a Notify for an alternate ASP becoming active. -/
example : ("AlternateAspActive", 0x20002) ∈ asStates ++ otherStatuses := by decide

/-- C81: the constants for MTP3 users are all wrong: every one of them has another number than RFC 4666 gives to that user, and most
of them the number of another user. -/
theorem c81_users : ∀ x ∈ users, ∃ v, Const.mtp3User.get x.1 = some v ∧ v ≠ x.2 := by decide +kernel

/-- C81: so the user identity of a DUPU message built with such a constant is wrong on the wire, whatever the cause. -/
theorem c81_dupu (x : String × Nat) (hx : x ∈ users) (cause : UInt16) : ∃ v : UInt16, Const.mtp3User.get x.1 = some v.toNat ∧
    v.toNat ≠ x.2 ∧ ViaWire (Param.newUserCause v cause) (tlv PName.userCause.tag (be32 (cause.toNat * 65536 + v.toNat)))
      (fun q => q.userIdentity = .ok v) := by
  have hv : ∀ x ∈ users, ∀ v, Const.mtp3User.get x.1 = some v → (UInt16.ofNat v).toNat = v := by
    have : ∀ x ∈ users, ((Const.mtp3User.get x.1).all fun v => (UInt16.ofNat v).toNat == v) = true := by decide +kernel
    intro x hx v h
    have := this x hx
    rw [h] at this
    simpa using this
  obtain ⟨v, h1, h2⟩ := c81_users x hx
  have h3 := hv x hx v h1
  obtain ⟨h4, q, h5, h6, -⟩ := c12_userCause (UInt16.ofNat v) cause
  exact ⟨UInt16.ofNat v, by rw [h3]; exact h1, by rw [h3]; exact h2, h4, q, h5, h6⟩

/-- `BICC` says broadband ISUP. -/
example : Const.mtp3User.get "BICC" = some 9 ∧ ("BICC", 13) ∈ users ∧ ("BroadbandISUP", 9) ∈ users := by decide +kernel

/-- C81: the service indicators of SCCP, TUP and ISUP are right, the others are wrong. -/
theorem c81_service : ∀ x ∈ serviceIndicators, ∃ v, Const.serviceIndicator.get x.1 = some v ∧
    (v = x.2 ↔ x.1 = "ServiceIndSCCP" ∨ x.1 = "ServiceIndTUP" ∨ x.1 = "ServiceIndISUP") := by decide +kernel

/-- `ServiceIndAALType2Signalling` is the number of satellite ISUP. -/
example : Const.serviceIndicator.get "ServiceIndAALType2Signalling" = some 10 ∧ ("ServiceIndSatelliteISUP", 10) ∈ serviceIndicators := by
  decide +kernel

end M3
