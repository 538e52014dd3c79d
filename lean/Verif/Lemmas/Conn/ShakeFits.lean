import Verif.Lemmas.Conn.ShakeSim
import Verif.Lemmas.Conn.Sched

/- The scripts of `Verif.Lemmas.Conn.Shake` are what the code does. -/

set_option autoImplicit false

namespace M3.Conn.Shake

/-- The four datagrams. -/
def bytes (Ec Es : Env) : Sig → Bytes
  | .up => (M3UA.aspUp (Msg.AspUp.new Ec.cfg.aspIdentifier none)).wire
  | .upAck => (M3UA.aspUpAck (Msg.AspUpAck.new Es.cfg.aspIdentifier none)).wire
  | .act => (M3UA.aspActive (Msg.AspActive.new Ec.cfg.trafficModeType Ec.cfg.routingContexts none)).wire
  | .actAck => (M3UA.aspActiveAck (Msg.AspActiveAck.new Es.cfg.trafficModeType Es.cfg.routingContexts none)).wire

theorem parse_wire (m : M3UA) (h : M3UA.Constructed m) (hw : m.WellTagged) :
    ∃ m', M3UA.parse m.wire = .ok m' ∧ m'.kind = m.kind ∧ m'.version = 1 := by
  obtain ⟨bs, m', h1, h2, h3, -, -, h4, -⟩ := c18_roundtrip m h hw
  rw [M3UA.encodes_iff] at h1
  subst h1
  refine ⟨m', h2, h3, ?_⟩
  cases m' <;> exact h4

theorem fits_client {Ec Es : Env} (hm : Ec.mode = .client) (hh : Ec.hb.enabled = false)
    (hl : ∀ x, (bytes Ec Es x).length ≤ 1500)
    (h1 : (M3UA.aspUpAck (Msg.AspUpAck.new Es.cfg.aspIdentifier none)).WellTagged)
    (h2 : (M3UA.aspActiveAck (Msg.AspActiveAck.new Es.cfg.trafficModeType Es.cfg.routingContexts none)).WellTagged) :
    Fits Ec (bytes Ec Es) := by
  obtain ⟨mode, cfg, hb, ms⟩ := Ec
  dsimp only at hm hh
  subst hm
  refine ⟨hl, ?_, ?_, ?_, ?_⟩
  · intro n hn hn'
    obtain rfl | rfl | rfl : n = 3 ∨ n = 4 ∨ n = 5 := by omega
    · refine ⟨_, rfl, _, rfl, ?_⟩
      show (if hb.enabled then _ else _) = _
      rw [hh]; rfl
    · obtain ⟨m', e1, e2, e3⟩ := parse_wire _ (.aspUpAck _ _) h1
      show Runs _ _ _ (packet _ _ >>= _)
      rw [packet_eq, show bytes ⟨.client, cfg, hb, ms⟩ Es (got ⟨.client, cfg, hb, ms⟩ 4) = _ from rfl]
      simp only [bytes, got]
      rw [e1]
      cases m' <;> simp only [M3UA.kind, Option.some.injEq, reduceCtorEq] at e2
      simp only [handleSignals, e3]
      exact ⟨_, rfl, _, rfl, _, rfl, _, rfl, rfl⟩
    · obtain ⟨m', e1, e2, e3⟩ := parse_wire _ (.aspActiveAck _ _ _) h2
      show Runs _ _ _ (packet _ _ >>= _)
      rw [packet_eq]
      simp only [bytes, got]
      rw [e1]
      cases m' <;> simp only [M3UA.kind, Option.some.injEq, reduceCtorEq] at e2
      simp only [handleSignals, e3]
      exact ⟨_, rfl, _, rfl, _, rfl, rfl⟩
  · exact ⟨_, rfl, _, rfl, rfl⟩
  · exact ⟨_, rfl, rfl⟩
  · refine ⟨_, rfl, _, rfl, ?_⟩
    have hml : ∀ E, body E .monitorLoop = monitorLoop' E := monitorLoop_eq
    rw [hml]
    refine ⟨_, rfl, _, rfl, _, rfl, _, rfl, _, rfl, _, rfl, fun n => ⟨_, rfl, _, rfl, _, rfl, _, rfl, ?_⟩⟩
    rw [hml]
    refine ⟨_, rfl, _, rfl, _, rfl, _, rfl, _, rfl, _, rfl, fun n => ⟨_, rfl, _, rfl, _, rfl, _, rfl, ?_⟩⟩
    rw [hml]
    exact ⟨_, rfl, _, rfl, _, rfl, _, rfl, _, rfl, _, rfl, _, rfl, _, rfl⟩

theorem fits_server {Ec Es : Env} (hm : Es.mode = .server) (hh : Es.hb.enabled = false)
    (hl : ∀ x, (bytes Ec Es x).length ≤ 1500)
    (h1 : (M3UA.aspUp (Msg.AspUp.new Ec.cfg.aspIdentifier none)).WellTagged)
    (h2 : (M3UA.aspActive (Msg.AspActive.new Ec.cfg.trafficModeType Ec.cfg.routingContexts none)).WellTagged) :
    Fits Es (bytes Ec Es) := by
  obtain ⟨mode, cfg, hb, ms⟩ := Es
  dsimp only at hm hh
  subst hm
  refine ⟨hl, ?_, ?_, ?_, ?_⟩
  · intro n hn hn'
    obtain rfl | rfl | rfl : n = 3 ∨ n = 4 ∨ n = 5 := by omega
    · refine ⟨_, rfl, _, rfl, ?_⟩
      show (if hb.enabled then _ else _) = _
      rw [hh]; rfl
    · obtain ⟨m', e1, e2, e3⟩ := parse_wire _ (.aspUp _ _) h1
      show Runs _ _ _ (packet _ _ >>= _)
      rw [packet_eq]
      simp only [bytes, got]
      rw [e1]
      cases m' <;> simp only [M3UA.kind, Option.some.injEq, reduceCtorEq] at e2
      simp only [handleSignals, e3, handleAspUp, writeOnly_eq]
      exact ⟨_, rfl, _, rfl, _, rfl, _, rfl, _, rfl, fun n => ⟨_, rfl, rfl⟩⟩
    · obtain ⟨m', e1, e2, e3⟩ := parse_wire _ (.aspActive _ _ _) h2
      show Runs _ _ _ (packet _ _ >>= _)
      rw [packet_eq]
      simp only [bytes, got]
      rw [e1]
      cases m' <;> simp only [M3UA.kind, Option.some.injEq, reduceCtorEq] at e2
      simp only [handleSignals, e3, handleAspActive, writeOnly_eq]
      exact ⟨_, rfl, _, rfl, _, rfl, _, rfl, fun n => ⟨_, rfl, rfl⟩⟩
  · exact ⟨_, rfl, _, rfl, rfl⟩
  · exact ⟨_, rfl, rfl⟩
  · refine ⟨_, rfl, _, rfl, ?_⟩
    have hml : ∀ E, body E .monitorLoop = monitorLoop' E := monitorLoop_eq
    rw [hml]
    refine ⟨_, rfl, _, rfl, _, rfl, _, rfl, _, rfl, _, rfl, _, rfl, _, rfl, ?_⟩
    rw [hml]
    refine ⟨_, rfl, _, rfl, _, rfl, _, rfl, _, rfl, _, rfl, _, rfl, _, rfl, ?_⟩
    rw [hml]
    exact ⟨_, rfl, _, rfl, _, rfl, _, rfl, _, rfl, _, rfl, _, rfl, _, rfl⟩

end M3.Conn.Shake
