import Verif.Model.Config
import Verif.Model.Msg.AspUp
import Verif.Model.Msg.AspActive
import Verif.Props.ParamKinds
import Verif.Props.Messages

/-! Properties C38 and C39: configurations and opening a connection. -/

set_option autoImplicit false

namespace M3

open Spec (be32 tlv PName message presentTlvs)

namespace Config

/-- A call of one of the setters. -/
inductive Setter where
  | heartbeat (interval timer : Int)
  | aspIdentifier (id : UInt32)
  | trafficModeType (v : UInt32)
  | networkAppearance (v : UInt32)
  | routingContexts (vs : List UInt32)
  | correlationID (id : UInt32)

/-- The call. -/
def Setter.call (c : Config) : Setter → Config
  | .heartbeat i t => c.enableHeartbeat i t
  | .aspIdentifier v => c.setAspIdentifier v
  | .trafficModeType v => c.setTrafficModeType v
  | .networkAppearance v => c.setNetworkAppearance v
  | .routingContexts vs => c.setRoutingContexts vs
  | .correlationID v => c.setCorrelationID v

/-- Arguments of the calls of one particular setter. -/
def Setter.hb? : Setter → Option (Int × Int)
  | .heartbeat i t => some (i, t)
  | _ => none
@[inherit_doc Setter.hb?] def Setter.asp? : Setter → Option UInt32
  | .aspIdentifier v => some v
  | _ => none
@[inherit_doc Setter.hb?] def Setter.tmt? : Setter → Option UInt32
  | .trafficModeType v => some v
  | _ => none
@[inherit_doc Setter.hb?] def Setter.na? : Setter → Option UInt32
  | .networkAppearance v => some v
  | _ => none
@[inherit_doc Setter.hb?] def Setter.rc? : Setter → Option (List UInt32)
  | .routingContexts v => some v
  | _ => none
@[inherit_doc Setter.hb?] def Setter.corr? : Setter → Option UInt32
  | .correlationID v => some v
  | _ => none

/-- The most recent value given to a setter. -/
def latest {α : Type} (f : Setter → Option α) (ss : List Setter) : Option α := (ss.filterMap f).getLast?

theorem latest_concat {α : Type} (f : Setter → Option α) (ss : List Setter) (s : Setter) :
    latest f (ss ++ [s]) = match f s with | some a => some a | none => latest f ss := by
  simp only [latest, List.filterMap_append, List.filterMap_cons, List.filterMap_nil]
  cases h : f s <;> simp

/-- The field holds nil if no value was given, and otherwise a parameter that reads back the value. -/
def ReadsBack {α : Type} (field : Option Param) (read : Param → Res α) (given : Option α) : Prop :=
  match given with
  | none => field = none
  | some a => ∃ p, field = some p ∧ read p = .ok a

theorem local_of_viaWire {p : Param} {bs : Bytes} {α : Type} {read : Param → Res α} {a : α}
    (hc : p.Consistent) (h : ViaWire p bs (fun q => read q = .ok a)) : read p = .ok a := by
  obtain ⟨hb, q, hq, hr⟩ := h
  have := Param.parse_encode p hc []
  rw [List.append_nil] at this
  rw [Param.marshalBinary_encode] at hb
  cases hb
  rw [this] at hq; cases hq; exact hr

theorem rc_local (vs : List UInt32) : (Param.newRoutingContext vs).routingContexts = .ok vs := by
  show Param.routingContexts (Param.newMultiUint32Val Tag.routingContext vs) = _
  rw [Param.routingContexts, if_neg (by simp [Param.newMultiUint32Val, Param.setLength])]
  exact Param.decodeMulti_words _ vs rfl

/-- The heartbeat data that `EnableHeartbeat` stores: the ASCII text "Hi, this is a BEAT from go-m3ua. Are you alive?". -/
def standardBeat : Bytes :=
  [72, 105, 44, 32, 116, 104, 105, 115, 32, 105, 115, 32, 97, 32, 66, 69, 65, 84, 32, 102, 114, 111, 109, 32, 103, 111, 45, 109, 51,
   117, 97, 46, 32, 65, 114, 101, 32, 121, 111, 117, 32, 97, 108, 105, 118, 101, 63]

theorem defaultBeat_eq : defaultBeat = standardBeat := by decide +kernel

/-- C38: after any sequence of setter calls on a `NewConfig`, every parameter reads back the most recent
value given to its own setter, is nil if its setter was never called, and the other values are those given
to `NewConfig`. -/
theorem c38_history (opc dpc : UInt32) (si ni mp sls : UInt8) (ss : List Setter) :
    let c := ss.foldl Setter.call (Config.new opc dpc si ni mp sls)
    ReadsBack c.aspIdentifier Param.aspIdentifier (latest Setter.asp? ss) ∧
    ReadsBack c.trafficModeType Param.trafficModeType (latest Setter.tmt? ss) ∧
    ReadsBack c.networkAppearance Param.networkAppearance (latest Setter.na? ss) ∧
    ReadsBack c.routingContexts Param.routingContexts (latest Setter.rc? ss) ∧
    ReadsBack c.correlationID Param.correlationID (latest Setter.corr? ss) ∧
    c.heartbeatInfo = (latest Setter.hb? ss).map (fun it => ⟨true, it.1, it.2, standardBeat⟩) ∧
    c.originatingPointCode = opc ∧ c.destinationPointCode = dpc ∧ c.serviceIndicator = si ∧
    c.networkIndicator = ni ∧ c.messagePriority = mp ∧ c.signalingLinkSelection = sls := by
  intro c
  have h1 : ∀ v, (Param.newAspIdentifier v).aspIdentifier = .ok v := fun v =>
    local_of_viaWire rfl (c07_aspIdentifier v)
  have h2 : ∀ v, (Param.newTrafficModeType v).trafficModeType = .ok v := fun v =>
    local_of_viaWire rfl (c07_trafficModeType v)
  have h3 : ∀ v, (Param.newNetworkAppearance v).networkAppearance = .ok v := fun v =>
    local_of_viaWire rfl (c07_networkAppearance v)
  have h4 : ∀ v, (Param.newCorrelationID v).correlationID = .ok v := fun v =>
    local_of_viaWire rfl (c07_correlationID v)
  show _ ∧ _
  generalize hc : c = c'
  replace hc : ss.foldl Setter.call (Config.new opc dpc si ni mp sls) = c' := hc
  clear c
  suffices ∀ (rs : List Setter) (c' : Config),
      rs.reverse.foldl Setter.call (Config.new opc dpc si ni mp sls) = c' →
      ReadsBack c'.aspIdentifier Param.aspIdentifier (latest Setter.asp? rs.reverse) ∧
      ReadsBack c'.trafficModeType Param.trafficModeType (latest Setter.tmt? rs.reverse) ∧
      ReadsBack c'.networkAppearance Param.networkAppearance (latest Setter.na? rs.reverse) ∧
      ReadsBack c'.routingContexts Param.routingContexts (latest Setter.rc? rs.reverse) ∧
      ReadsBack c'.correlationID Param.correlationID (latest Setter.corr? rs.reverse) ∧
      c'.heartbeatInfo = (latest Setter.hb? rs.reverse).map (fun it => ⟨true, it.1, it.2, standardBeat⟩) ∧
      c'.originatingPointCode = opc ∧ c'.destinationPointCode = dpc ∧ c'.serviceIndicator = si ∧
      c'.networkIndicator = ni ∧ c'.messagePriority = mp ∧ c'.signalingLinkSelection = sls by
    have := this ss.reverse c'
    rw [List.reverse_reverse] at this
    exact this hc
  intro rs
  induction rs with
  | nil => rintro c rfl; exact ⟨rfl, rfl, rfl, rfl, rfl, rfl, rfl, rfl, rfl, rfl, rfl, rfl⟩
  | cons s rs ih =>
    intro c hc
    rw [List.reverse_cons, List.foldl_append] at hc
    obtain ⟨a1, a2, a3, a4, a5, a6, a7⟩ := ih _ rfl
    rw [List.reverse_cons]
    simp only [latest_concat]
    generalize rs.reverse.foldl Setter.call (Config.new opc dpc si ni mp sls) = c0 at *
    subst hc
    cases s
    · exact ⟨a1, a2, a3, a4, a5, by rw [← defaultBeat_eq]; rfl, a7⟩
    · exact ⟨⟨_, rfl, h1 _⟩, a2, a3, a4, a5, a6, a7⟩
    · exact ⟨a1, ⟨_, rfl, h2 _⟩, a3, a4, a5, a6, a7⟩
    · exact ⟨a1, a2, ⟨_, rfl, h3 _⟩, a4, a5, a6, a7⟩
    · exact ⟨a1, a2, a3, ⟨_, rfl, rc_local _⟩, a5, a6, a7⟩
    · exact ⟨a1, a2, a3, a4, ⟨_, rfl, h4 _⟩, a6, a7⟩

/-- C38: the two all-in-one constructors agree and store what they are given. -/
theorem c38_constructors (hb : Option HeartbeatInfo) (opc dpc aspID tmt nwApr corrID : UInt32)
    (rtCtxs : List UInt32) (si ni mp sls : UInt8) :
    let c := Config.newClient hb opc dpc aspID tmt nwApr corrID rtCtxs si ni mp sls
    c = Config.newServer hb opc dpc aspID tmt nwApr corrID rtCtxs si ni mp sls ∧
    ReadsBack c.aspIdentifier Param.aspIdentifier (some aspID) ∧
    ReadsBack c.trafficModeType Param.trafficModeType (some tmt) ∧
    ReadsBack c.networkAppearance Param.networkAppearance (some nwApr) ∧
    ReadsBack c.routingContexts Param.routingContexts (some rtCtxs) ∧
    ReadsBack c.correlationID Param.correlationID (some corrID) ∧
    c.heartbeatInfo = hb ∧
    c.originatingPointCode = opc ∧ c.destinationPointCode = dpc ∧ c.serviceIndicator = si ∧
    c.networkIndicator = ni ∧ c.messagePriority = mp ∧ c.signalingLinkSelection = sls :=
  ⟨rfl, ⟨_, rfl, local_of_viaWire rfl (c07_aspIdentifier _)⟩,
    ⟨_, rfl, local_of_viaWire rfl (c07_trafficModeType _)⟩,
    ⟨_, rfl, local_of_viaWire rfl (c07_networkAppearance _)⟩,
    ⟨_, rfl, rc_local _⟩,
    ⟨_, rfl, local_of_viaWire rfl (c07_correlationID _)⟩, rfl, rfl, rfl, rfl, rfl, rfl, rfl⟩

/-- What a client configuration made in one go holds. -/
example : (Config.newClient none 1 2 7 8 9 10 [11, 12] 3 4 5 6).routingContexts.map Param.routingContexts =
    some (.ok [11, 12]) := rfl

/-- C38: on the wire, a parameter appears with the value last given to its setter, or not at all. The ASP Up
and ASP Active messages of a client, for every history of setter calls. -/
theorem c38_wire (opc dpc : UInt32) (si ni mp sls : UInt8) (ss : List Setter) :
    let c := ss.foldl Setter.call (Config.new opc dpc si ni mp sls)
    (M3UA.aspUp (Msg.AspUp.new c.aspIdentifier none)).Encodes
      (message 1 3 1 (((latest Setter.asp? ss).map fun v => tlv 0x11 (be32 v.toNat)).toList)) ∧
    (M3UA.aspActive (Msg.AspActive.new c.trafficModeType c.routingContexts none)).Encodes
      (message 1 4 1 ((((latest Setter.tmt? ss).map fun v => tlv 0x0b (be32 v.toNat)).toList) ++
        (((latest Setter.rc? ss).map fun vs => tlv 0x06 (vs.flatMap fun v => be32 v.toNat)).toList))) := by
  intro c
  have key : c.aspIdentifier = (latest Setter.asp? ss).map Param.newAspIdentifier ∧
      c.trafficModeType = (latest Setter.tmt? ss).map Param.newTrafficModeType ∧
      c.routingContexts = (latest Setter.rc? ss).map Param.newRoutingContext := by
    show (ss.foldl Setter.call _).aspIdentifier = _ ∧ _
    suffices ∀ rs : List Setter, (rs.reverse.foldl Setter.call (Config.new opc dpc si ni mp sls)).aspIdentifier
          = (latest Setter.asp? rs.reverse).map Param.newAspIdentifier ∧
        (rs.reverse.foldl Setter.call (Config.new opc dpc si ni mp sls)).trafficModeType
          = (latest Setter.tmt? rs.reverse).map Param.newTrafficModeType ∧
        (rs.reverse.foldl Setter.call (Config.new opc dpc si ni mp sls)).routingContexts
          = (latest Setter.rc? rs.reverse).map Param.newRoutingContext by
      simpa only [List.reverse_reverse] using this ss.reverse
    intro rs
    induction rs with
    | nil => exact ⟨rfl, rfl, rfl⟩
    | cons s rs ih =>
      rw [List.reverse_cons, List.foldl_append]
      simp only [latest_concat]
      generalize rs.reverse.foldl Setter.call (Config.new opc dpc si ni mp sls) = c0 at *
      obtain ⟨a, b, d⟩ := ih
      cases s
      · exact ⟨a, b, d⟩
      · exact ⟨rfl, b, d⟩
      · exact ⟨a, rfl, d⟩
      · exact ⟨a, b, d⟩
      · exact ⟨a, b, rfl⟩
      · exact ⟨a, b, d⟩
  rw [key.1, key.2.1, key.2.2]
  have t1 : ∀ o : Option UInt32, tv (o.map Param.newAspIdentifier) = o.map fun v => (0x11, be32 v.toNat) := by
    intro o; cases o with
    | none => rfl
    | some v => rw [Option.map_some, Option.map_some, ← u32bytes_spec]; rfl
  have t2 : ∀ o : Option UInt32, tv (o.map Param.newTrafficModeType) = o.map fun v => (0x0b, be32 v.toNat) := by
    intro o; cases o with
    | none => rfl
    | some v => rw [Option.map_some, Option.map_some, ← u32bytes_spec]; rfl
  have t3 : ∀ o : Option (List UInt32), tv (o.map Param.newRoutingContext)
      = o.map fun vs => (0x06, vs.flatMap fun v => be32 v.toNat) := by
    intro o; cases o with
    | none => rfl
    | some vs =>
      rw [Option.map_some, Option.map_some, ← show vs.flatMap u32bytes = vs.flatMap fun v => be32 v.toNat from
          congrArg vs.flatMap (funext u32bytes_spec)]
      rfl
  constructor
  · have h := c17_aspUp ((latest Setter.asp? ss).map Param.newAspIdentifier) none
    rw [t1, show tv none = none from rfl] at h
    generalize latest Setter.asp? ss = o at h ⊢
    cases o <;> exact h
  · have h := c17_aspActive ((latest Setter.tmt? ss).map Param.newTrafficModeType)
      ((latest Setter.rc? ss).map Param.newRoutingContext) none
    rw [t2, t3, show tv none = none from rfl] at h
    generalize latest Setter.tmt? ss = o at h ⊢
    generalize latest Setter.rc? ss = o' at h ⊢
    cases o <;> cases o' <;> exact h

example : latest Setter.asp? [.aspIdentifier 1, .correlationID 5, .aspIdentifier 2, .heartbeat 3 4] = some 2 ∧
    latest Setter.tmt? [.aspIdentifier 1, .correlationID 5, .aspIdentifier 2, .heartbeat 3 4] = none :=
  ⟨rfl, rfl⟩

end Config

/-- The network names a user may give, and the SCTP network each stands for. -/
def Spec.knownNetworks : List (String × String) := [("m3ua", "sctp"), ("m3ua4", "sctp4"), ("m3ua6", "sctp6")]

theorem netMap_iff (net n : String) : netMap net = some n ↔ (net, n) ∈ Spec.knownNetworks := by
  unfold netMap Spec.knownNetworks
  split
  all_goals simp_all [eq_comm]

theorem netMap_none (net : String) : netMap net = none ↔ ∀ n, (net, n) ∉ Spec.knownNetworks := by
  constructor
  · intro h n hn; rw [← netMap_iff, h] at hn; cases hn
  · intro h
    cases hm : netMap net with
    | none => rfl
    | some n => exact absurd ((netMap_iff _ _).mp hm) (h n)

/-- C39: `Dial` panics exactly on a nil `HeartbeatInfo`, whatever the network. -/
theorem c39_dial_panic (net : String) (cfg : Config) :
    dialOpen net cfg = .panic ↔ cfg.heartbeatInfo = none := by
  unfold dialOpen checkInterval
  cases cfg.heartbeatInfo with
  | none => simp
  | some hb => by_cases h : hb.interval = 0 <;> cases hm : netMap net <;> simp [h]

/-- C39: and so does `Accept`. -/
theorem c39_accept_panic (cfg : Config) : acceptOpen cfg = .panic ↔ cfg.heartbeatInfo = none := by
  unfold acceptOpen checkInterval
  cases cfg.heartbeatInfo with
  | none => simp
  | some hb => by_cases h : hb.interval = 0 <;> simp [h]

/-- C39: in particular a configuration from `NewConfig` cannot be used as is, unless `EnableHeartbeat` is
among the setters called. -/
theorem c39_newConfig (net : String) (opc dpc : UInt32) (si ni mp sls : UInt8) (ss : List Config.Setter) :
    dialOpen net (ss.foldl Config.Setter.call (Config.new opc dpc si ni mp sls)) = .panic ↔
      ∀ i t, Config.Setter.heartbeat i t ∉ ss := by
  rw [c39_dial_panic, (Config.c38_history opc dpc si ni mp sls ss).2.2.2.2.2.1, Option.map_eq_none_iff,
    Config.latest, List.getLast?_eq_none_iff, List.filterMap_eq_nil_iff]
  constructor
  · intro h i t hs; have := h _ hs; cases this
  · intro h s hs
    cases s with
    | heartbeat i t => exact absurd hs (h i t)
    | _ => rfl

/-- C39: with a `HeartbeatInfo`, `Dial` fails without touching SCTP iff the network is unknown; otherwise it
goes on with the right SCTP network. -/
theorem c39_dial_network (net : String) (cfg : Config) (hb : HeartbeatInfo) (h : cfg.heartbeatInfo = some hb) :
    (dialOpen net cfg = .invalidNetwork net ↔ ∀ n, (net, n) ∉ Spec.knownNetworks) ∧
    (∀ n, (∃ c, dialOpen net cfg = .proceed (n, c)) ↔ (net, n) ∈ Spec.knownNetworks) := by
  rw [← netMap_none]
  simp only [← netMap_iff]
  unfold dialOpen checkInterval
  rw [h]
  by_cases h0 : hb.interval = 0 <;> cases hm : netMap net <;> simp [h0]

example : ∃ c, dialOpen "m3ua4" ((Config.new 1 2 3 4 5 6).enableHeartbeat 1 1) = .proceed ("sctp4", c) := ⟨_, rfl⟩

/-- C39: `Listen` accepts the same networks and does not look at the configuration. -/
theorem c39_listen (net : String) (cfg : Config) :
    (listenOpen net cfg = .invalidNetwork net ↔ ∀ n, (net, n) ∉ Spec.knownNetworks) ∧
    (∀ n c, listenOpen net cfg = .proceed (n, c) ↔ (net, n) ∈ Spec.knownNetworks ∧ c = cfg) := by
  rw [← netMap_none]
  simp only [← netMap_iff]
  unfold listenOpen
  cases hm : netMap net <;> simp [eq_comm]

/-- C39: the configuration a connection runs with is the one given, except that a zero interval switches
heartbeats off. -/
theorem c39_interval (net n : String) (cfg c : Config) :
    (dialOpen net cfg = .proceed (n, c) → acceptOpen cfg = .proceed c) ∧
    (acceptOpen cfg = .proceed c → ∃ hb, cfg.heartbeatInfo = some hb ∧
      (hb.interval = 0 → c = { cfg with heartbeatInfo := some { hb with enabled := false } }) ∧
      (hb.interval ≠ 0 → c = cfg)) := by
  unfold dialOpen acceptOpen
  refine ⟨fun h => ?_, fun h => ?_⟩
  · revert h
    cases checkInterval cfg <;> simp
    cases netMap net <;> simp
  · unfold checkInterval at h
    cases hh : cfg.heartbeatInfo with
    | none => rw [hh] at h; cases h
    | some hb =>
      rw [hh] at h
      by_cases h0 : hb.interval = 0
      · simp [h0] at h; exact ⟨hb, rfl, fun _ => by rw [h0]; exact h.symm, fun hn => absurd h0 hn⟩
      · simp [h0] at h; exact ⟨hb, rfl, fun hn => absurd hn h0, fun _ => h.symm⟩

example : dialOpen "m3ua" (Config.new 1 2 3 4 5 6) = .panic := rfl
example : dialOpen "tcp" ((Config.new 1 2 3 4 5 6).enableHeartbeat 1 1) = .invalidNetwork "tcp" := rfl
example : dialOpen "m3ua6" ((Config.new 1 2 3 4 5 6).enableHeartbeat 0 1) = .proceed ("sctp6",
    { Config.new 1 2 3 4 5 6 with heartbeatInfo := some ⟨false, 0, 1, Config.defaultBeat⟩ }) := rfl

end M3
