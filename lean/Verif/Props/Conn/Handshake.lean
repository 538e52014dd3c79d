import Verif.Lemmas.Conn.ShakeFits
import Verif.Lemmas.Seq
import Verif.Props.Config

/-! Property C59: a client and a server of this library complete the handshake. -/

set_option autoImplicit false
set_option linter.unusedSimpArgs false

namespace M3.Conn

open Spec (be32 tlv message presentTlvs)

/-- The values of a configuration that appear in the handshake; `none`: not set. -/
structure Values where
  asp : Option UInt32
  tmt : Option UInt32
  rcs : Option (List UInt32)

/-- The fields of the configuration were set with the constructors of package `params`, as by `NewClientConfig`,
`NewServerConfig` and the setters (C38), to these values. -/
structure Values.Of (v : Values) (E : Env) : Prop where
  asp : E.cfg.aspIdentifier = v.asp.map Param.newAspIdentifier
  tmt : E.cfg.trafficModeType = v.tmt.map Param.newTrafficModeType
  rcs : E.cfg.routingContexts = v.rcs.map Param.newRoutingContext

/-- ASP Identifier on the wire. -/
def Values.aspTlv (v : Values) : List Bytes := (v.asp.map fun a => tlv 0x11 (be32 a.toNat)).toList

/-- Traffic Mode Type and Routing Context on the wire. -/
def Values.modeTlvs (v : Values) : List Bytes :=
  (v.tmt.map fun t => tlv 0x0b (be32 t.toNat)).toList ++
    (v.rcs.map fun rs => tlv 0x06 (rs.flatMap fun r => be32 r.toNat)).toList

/-- What the client sends: ASP Up, ASP Active; datagram, stream, payload protocol identifier. -/
def Values.clientSends (v : Values) : List (Bytes × UInt16 × UInt32) :=
  [(message 1 3 1 v.aspTlv, 0, 3), (message 1 4 1 v.modeTlvs, 0, 3)]

/-- What the server sends: ASP Up Ack, ASP Active Ack. -/
def Values.serverSends (v : Values) : List (Bytes × UInt16 × UInt32) :=
  [(message 1 3 4 v.aspTlv, 0, 3), (message 1 4 3 v.modeTlvs, 0, 3)]

/-- A client and a server, heartbeats disabled, whose messages fit the read buffer of 1500 bytes. -/
structure Setup (Ec Es : Env) (c s : Values) : Prop where
  client : Ec.mode = .client
  server : Es.mode = .server
  quiet : Ec.hb.enabled = false ∧ Es.hb.enabled = false
  cvals : c.Of Ec
  svals : s.Of Es
  fits : (message 1 4 1 c.modeTlvs).length ≤ 1500 ∧ (message 1 4 3 s.modeTlvs).length ≤ 1500

namespace Shake

variable {Ec Es : Env} {c s : Values}

theorem tv_asp (o : Option UInt32) : tv (o.map Param.newAspIdentifier) = o.map fun v => (0x11, be32 v.toNat) := by
  cases o with
  | none => rfl
  | some v => rw [Option.map_some, Option.map_some, ← u32bytes_spec]; rfl

theorem tv_tmt (o : Option UInt32) : tv (o.map Param.newTrafficModeType) = o.map fun v => (0x0b, be32 v.toNat) := by
  cases o with
  | none => rfl
  | some v => rw [Option.map_some, Option.map_some, ← u32bytes_spec]; rfl

theorem tv_rcs (o : Option (List UInt32)) : tv (o.map Param.newRoutingContext)
    = o.map fun vs => (0x06, vs.flatMap fun v => be32 v.toNat) := by
  cases o with
  | none => rfl
  | some vs =>
    rw [Option.map_some, Option.map_some, ← show vs.flatMap u32bytes = vs.flatMap fun v => be32 v.toNat from
        congrArg vs.flatMap (funext u32bytes_spec)]
    rfl

theorem present_asp (v : Values) : presentTlvs [tv (v.asp.map Param.newAspIdentifier), tv none] = v.aspTlv := by
  rw [tv_asp, Values.aspTlv]
  cases v.asp <;> rfl

theorem present_mode (v : Values) :
    presentTlvs [tv (v.tmt.map Param.newTrafficModeType), tv (v.rcs.map Param.newRoutingContext), tv none] = v.modeTlvs := by
  rw [tv_tmt, tv_rcs, Values.modeTlvs]
  cases v.tmt <;> cases v.rcs <;> rfl

theorem bytes_eq (h : Setup Ec Es c s) :
    bytes Ec Es .up = message 1 3 1 c.aspTlv ∧ bytes Ec Es .upAck = message 1 3 4 s.aspTlv ∧
    bytes Ec Es .act = message 1 4 1 c.modeTlvs ∧ bytes Ec Es .actAck = message 1 4 3 s.modeTlvs := by
  have key : ∀ {m : M3UA} {b : Bytes}, m.Encodes b → m.wire = b := fun h => (M3UA.encodes_iff.mp h).symm
  refine ⟨?_, ?_, ?_, ?_⟩
  · rw [bytes, h.cvals.asp, key (c17_aspUp _ _), present_asp]; rfl
  · rw [bytes, h.svals.asp, key (c17_aspUpAck _ _), present_asp]; rfl
  · rw [bytes, h.cvals.tmt, h.cvals.rcs, key (c17_aspActive _ _ _), present_mode]; rfl
  · rw [bytes, h.svals.tmt, h.svals.rcs, key (c17_aspActiveAck _ _ _), present_mode]; rfl

theorem message_length (v cls typ : Nat) (ps : List Bytes) : (message v cls typ ps).length = 8 + ps.flatten.length := by
  simp [message, be32]; omega

theorem asp_length (v : Values) (cls typ : Nat) : (message 1 cls typ v.aspTlv).length ≤ 1500 := by
  rw [message_length, Values.aspTlv]
  cases v.asp <;> simp [tlv_length, be32, Spec.pad]

theorem rcs_length {v : Values} {cls typ : Nat} (h : (message 1 cls typ v.modeTlvs).length ≤ 1500) {rs : List UInt32}
    (hr : v.rcs = some rs) : (rs.flatMap u32bytes).length ≤ 65531 := by
  rw [message_length, Values.modeTlvs, hr] at h
  simp only [List.flatten_append, List.length_append, Option.map_some, Option.toList_some, List.flatten_cons,
    List.flatten_nil, List.append_nil, tlv_length] at h
  rw [show rs.flatMap u32bytes = rs.flatMap fun v => be32 v.toNat from congrArg rs.flatMap (funext u32bytes_spec)]
  omega

theorem lengths (h : Setup Ec Es c s) (x : Sig) : (bytes Ec Es x).length ≤ 1500 := by
  obtain ⟨h1, h2, h3, h4⟩ := bytes_eq h
  cases x
  · rw [h1]; exact asp_length _ _ _
  · rw [h2]; exact asp_length _ _ _
  · rw [h3]; exact h.fits.1
  · rw [h4]; exact h.fits.2

theorem set_asp (a : UInt32) : (Param.newAspIdentifier a).setLength = Param.newAspIdentifier a := rfl
theorem set_tmt (a : UInt32) : (Param.newTrafficModeType a).setLength = Param.newTrafficModeType a := rfl
theorem set_rcs (a : List UInt32) : (Param.newRoutingContext a).setLength = Param.newRoutingContext a := rfl

theorem asp_tagged {v : Values} {m : M3UA}
    (h : ∀ n p, m.field n = some p → n = .aspIdentifier ∧ v.asp.map Param.newAspIdentifier = some p) : m.WellTagged := by
  intro n p hp
  obtain ⟨rfl, h⟩ := h n p hp
  cases ha : v.asp with
  | none => rw [ha] at h; cases h
  | some a =>
    rw [ha] at h; cases h
    exact ⟨rfl, by simp [Param.newAspIdentifier, Param.newUint32Val, u32bytes, Spec.maxValue]⟩

theorem mode_tagged {v : Values} {m : M3UA} (hr : ∀ rs, v.rcs = some rs → (rs.flatMap u32bytes).length ≤ 65531)
    (h : ∀ n p, m.field n = some p → (n = .trafficModeType ∧ v.tmt.map Param.newTrafficModeType = some p) ∨
      (n = .routingContext ∧ v.rcs.map Param.newRoutingContext = some p)) : m.WellTagged := by
  intro n p hp
  rcases h n p hp with ⟨rfl, h⟩ | ⟨rfl, h⟩
  · cases ha : v.tmt with
    | none => rw [ha] at h; cases h
    | some a =>
      rw [ha] at h; cases h
      exact ⟨rfl, by simp [Param.newTrafficModeType, Param.newUint32Val, u32bytes, Spec.maxValue]⟩
  · cases ha : v.rcs with
    | none => rw [ha] at h; cases h
    | some rs =>
      rw [ha] at h; cases h
      exact ⟨rfl, hr rs ha⟩

theorem Setup.match (h : Setup Ec Es c s) : Match Ec Es (bytes Ec Es) where
  cmode := h.client
  smode := h.server
  client := by
    refine fits_client h.client h.quiet.1 (lengths h) ?_ ?_
    · rw [h.svals.asp]
      refine asp_tagged (v := s) fun n p hp => ?_
      cases n <;> simp_all [M3UA.field, Msg.AspUpAck.new, Msg.AspUpAck.setLength, set_asp, set_tmt, set_rcs]
    · rw [h.svals.tmt, h.svals.rcs]
      refine mode_tagged (v := s) (fun rs => rcs_length h.fits.2) fun n p hp => ?_
      cases n <;> simp_all [M3UA.field, Msg.AspActiveAck.new, Msg.AspActiveAck.setLength, set_asp, set_tmt, set_rcs]
  server := by
    refine fits_server h.server h.quiet.2 (lengths h) ?_ ?_
    · rw [h.cvals.asp]
      refine asp_tagged (v := c) fun n p hp => ?_
      cases n <;> simp_all [M3UA.field, Msg.AspUp.new, Msg.AspUp.setLength, set_asp, set_tmt, set_rcs]
    · rw [h.cvals.tmt, h.cvals.rcs]
      refine mode_tagged (v := c) (fun rs => rcs_length h.fits.1) fun n p hp => ?_
      cases n <;> simp_all [M3UA.field, Msg.AspActive.new, Msg.AspActive.setLength, set_asp, set_tmt, set_rcs]

theorem posted_client (h : Setup Ec Es c s) (n : Nat) :
    ((outSigs Ec.mode).take n).map (fun x => (bytes Ec Es x, (0 : UInt16), (3 : UInt32))) = c.clientSends.take n := by
  obtain ⟨h1, h2, h3, h4⟩ := bytes_eq h
  rw [h.client, List.map_take, outSigs, Values.clientSends, ← h1, ← h3]; rfl

theorem posted_server (h : Setup Ec Es c s) (n : Nat) :
    ((outSigs Es.mode).take n).map (fun x => (bytes Ec Es x, (0 : UInt16), (3 : UInt32))) = s.serverSends.take n := by
  obtain ⟨h1, h2, h3, h4⟩ := bytes_eq h
  rw [h.server, List.map_take, outSigs, Values.serverSends, ← h2, ← h4]; rfl

end Shake

/-- C59: whatever the interleaving, neither process panics, the client sends nothing but ASP Up and then ASP Active, the
server nothing but ASP Up Ack and then ASP Active Ack (in particular no Error), each answering the other, `Dial` and
`Accept` do not fail, and there are at most 78 steps. -/
theorem c59_safe {Ec Es : Env} {c s : Values} (h : Setup Ec Es c s) {n : Nat} {p : Pair}
    (hp : Pair.Steps Ec Es n (.init Ec Es) p) :
    n ≤ 78 ∧ p.client.sh.crashed = false ∧ p.server.sh.crashed = false ∧
    (∃ i j, p.client.posted = c.clientSends.take i ∧ p.server.posted = s.serverSends.take j ∧ j ≤ i ∧ i ≤ j + 1) ∧
    (∀ r ∈ p.client.openings, r = .conn) ∧ (∀ r ∈ p.server.openings, r = .conn) := by
  obtain ⟨a, hr, hb⟩ := Shake.Both.steps (Shake.Setup.match h) hp
  obtain ⟨hn, hg⟩ := Shake.run_good hr
  simp only [Shake.P.good, Bool.and_eq_true, Nat.ble_eq] at hg
  refine ⟨hn, hb.client.crashed, hb.server.crashed, ⟨a.c.sent, a.s.sent, ?_, ?_, hg.1.2, hg.2⟩, ?_, ?_⟩
  · rw [hb.client.posted, Shake.posted_client h]
  · rw [hb.server.posted, Shake.posted_server h]
  · rw [hb.client.opened]; exact fun r hr => List.eq_of_mem_replicate hr
  · rw [hb.server.opened]; exact fun r hr => List.eq_of_mem_replicate hr

/-- C59: when nothing more can happen, both are active, all four messages were sent and received, and `Dial` and
`Accept` have returned the connection. With `c59_safe`, every execution ends so after at most 78 steps. -/
theorem c59_complete {Ec Es : Env} {c s : Values} (h : Setup Ec Es c s) {n : Nat} {p : Pair}
    (hp : Pair.Steps Ec Es n (.init Ec Es) p) (hstop : ∀ q, ¬ Pair.Step Ec Es p q) :
    p.client.sh.st = .active ∧ p.server.sh.st = .active ∧
    p.client.posted = c.clientSends ∧ p.server.posted = s.serverSends ∧
    p.client.openings = [.conn] ∧ p.server.openings = [.conn] ∧
    p.toServer = [] ∧ p.toClient = [] ∧ p.client.sh.inbox = [] ∧ p.server.sh.inbox = [] ∧
    p.client.sh.locked = false ∧ p.server.sh.locked = false := by
  obtain ⟨a, hr, hb⟩ := Shake.Both.steps (Shake.Setup.match h) hp
  have hg := (Shake.run_good hr).2
  rw [hb.stop (Shake.Setup.match h) hstop] at hg
  simp [Shake.P.good, Shake.P.final] at hg
  obtain ⟨⟨⟨⟨⟨⟨⟨⟨⟨⟨⟨⟨⟨g1, g2⟩, g3⟩, g4⟩, g5⟩, g6⟩, g7⟩, g8⟩, g9⟩, g10⟩, g11⟩, g12⟩, -⟩, -⟩ := hg
  refine ⟨hb.client.st.trans g1, hb.server.st.trans g2, ?_, ?_, ?_, ?_, ?_, ?_, ?_, ?_, hb.client.locked.trans g11,
    hb.server.locked.trans g12⟩
  · rw [hb.client.posted, Shake.posted_client h, g5]; rfl
  · rw [hb.server.posted, Shake.posted_server h, g6]; rfl
  · rw [hb.client.opened, g3]; rfl
  · rw [hb.server.opened, g4]; rfl
  · rw [hb.toServer, g7]; rfl
  · rw [hb.toClient, g8]; rfl
  · rw [hb.client.inbox, g9]; rfl
  · rw [hb.server.inbox, g10]; rfl

/-- C59: from every state of the handshake the execution can be continued to such an end. -/
theorem c59_reaches {Ec Es : Env} {c s : Values} (h : Setup Ec Es c s) {n : Nat} {p : Pair}
    (hp : Pair.Steps Ec Es n (.init Ec Es) p) :
    ∃ k q, Pair.Steps Ec Es k p q ∧ Pair.Steps Ec Es (n + k) (.init Ec Es) q ∧ ∀ r, ¬ Pair.Step Ec Es q r := by
  have hn := (c59_safe h hp).1
  generalize hd : 78 - n = d
  induction d generalizing n p with
  | zero =>
    refine ⟨0, p, .refl p, hp, fun r hr => ?_⟩
    have := (c59_safe h (hp.tail hr)).1
    omega
  | succ d ih =>
    by_cases hs : ∃ r, Pair.Step Ec Es p r
    · obtain ⟨r, hr⟩ := hs
      obtain ⟨k, q, h1, h2, h3⟩ := ih (hp.tail hr) (c59_safe h (hp.tail hr)).1 (by omega)
      refine ⟨k + 1, q, Pair.Steps.head hr h1, ?_, h3⟩
      rwa [show n + (k + 1) = n + 1 + k by omega]
    · exact ⟨0, p, .refl p, hp, fun r hr => hs ⟨r, hr⟩⟩

/-- Heartbeats switched off. -/
def noBeat : HeartbeatInfo := ⟨false, 0, 0, []⟩

/-- Configurations made with `NewClientConfig` and `NewServerConfig` satisfy the hypotheses if there are at most 370
routing contexts. -/
theorem setup_of (opc dpc asp tmt na corr opc' dpc' asp' tmt' na' corr' : UInt32) (rcs rcs' : List UInt32)
    (si ni mp sls si' ni' mp' sls' : UInt8) (ms ms' : UInt16) (hr : rcs.length ≤ 370) (hr' : rcs'.length ≤ 370) :
    Setup ⟨.client, Config.newClient (some noBeat) opc dpc asp tmt na corr rcs si ni mp sls, noBeat, ms⟩
      ⟨.server, Config.newServer (some noBeat) opc' dpc' asp' tmt' na' corr' rcs' si' ni' mp' sls', noBeat, ms'⟩
      ⟨some asp, some tmt, some rcs⟩ ⟨some asp', some tmt', some rcs'⟩ := by
  have len : ∀ (l : List UInt32), (l.flatMap fun r => be32 r.toNat).length = 4 * l.length := by
    intro l
    induction l with
    | nil => rfl
    | cons a l ih => rw [List.flatMap_cons, List.length_append, ih]; simp [be32]; omega
  refine ⟨rfl, rfl, ⟨rfl, rfl⟩, ⟨rfl, rfl, rfl⟩, ⟨rfl, rfl, rfl⟩, ?_, ?_⟩ <;>
    (rw [Shake.message_length]
     simp only [Values.modeTlvs, Option.map_some, Option.toList_some, List.cons_append, List.nil_append,
       List.flatten_cons, List.flatten_nil, List.append_nil, List.length_append, tlv_length, len, Spec.pad]
     simp only [be32, List.length_cons, List.length_nil]
     omega)

/-- For the theorems on C59: a handshake that has come to its end. -/
example : ∃ Ec Es c s n p, Setup Ec Es c s ∧ Pair.Steps Ec Es n (.init Ec Es) p ∧ (∀ q, ¬ Pair.Step Ec Es p q) ∧
    c.clientSends.length = 2 := by
  obtain ⟨k, q, -, h2, h3⟩ := c59_reaches (setup_of 1 2 3 1 4 5 2 1 6 1 4 5 [7, 8] [9] 3 2 0 1 3 2 0 1 10 10 (by decide) (by decide))
    (.refl _)
  exact ⟨_, _, _, _, _, q, setup_of 1 2 3 1 4 5 2 1 6 1 4 5 [7, 8] [9] 3 2 0 1 3 2 0 1 10 10 (by decide) (by decide), h2, h3, rfl⟩

end M3.Conn
