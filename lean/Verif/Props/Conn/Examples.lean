import Verif.Model.Examples
import Verif.Props.Conn.BeatData
import Verif.Props.Conn.Duo
import Verif.Props.Conn.Outcome
import Verif.Props.Conn.Room
import Verif.Props.Conn.Setup

/- The example client and the example server, connected with each other: C113. -/

set_option autoImplicit false

namespace M3.Conn

open Examples Spec

/-- All the user does is to call `Write(d)`, as `examples/client/m3ua-client.go:92-100` does. -/
def OnlyWrites (d : Bytes) (w : World) : Prop := ∀ t ∈ w.threads, ofUser t.gor = true → t.gor = .api (.write d)

/-- All the user does is to call `Read` with a buffer of 1500 bytes, as `serve` in `examples/server/m3ua-server.go:23-42` does until `Read` fails. -/
def OnlyReads (w : World) : Prop := ∀ t ∈ w.threads, ofUser t.gor = true → t.gor = .api (.read 1500)

/-- The two programs, started without `-hb-interval`, have got their associations: `Dial` and `Accept` have started connections. -/
structure Started (Ec Es : Env) : Prop where
  client : ∃ S, (dial S "m3ua" (some (clientConfig 0))).1 = .running Ec
  server : ∃ S timer, (accept S (some (serverConfig 0 timer))).1 = .running Es

/-- The values in the configuration of the example client. -/
def exampleClient : Values := ⟨some 1, some 2, some [1, 2]⟩

/-- The values in the configuration of the example server. -/
def exampleServer : Values := ⟨none, some 2, some [1, 2]⟩

variable {Ec Es : Env}

/-- C113: the two example programs are a setup as in the theorems on two endpoints: heartbeats are disabled, their configurations are usable. -/
theorem c113_setup (h : Started Ec Es) : Setup Ec Es exampleClient exampleServer ∧ DataConfig Ec.cfg ∧ DataConfig Es.cfg := by
  obtain ⟨⟨S, hc⟩, S', timer, hs⟩ := h
  obtain ⟨n, k, hb, -, -, -, h1, h2, h3, h4, -⟩ := (c100_started S "m3ua" (clientConfig 0) Ec).mp hc
  obtain ⟨k', hb', -, -, g1, g2, g3, g4, -⟩ := (c100_accept_started S' (serverConfig 0 timer) Es).mp hs
  obtain ⟨mode, cfg, ehb, ms⟩ := Ec
  obtain ⟨mode', cfg', ehb', ms'⟩ := Es
  simp only at h1 h2 h3 h4 g1 g2 g3 g4
  subst h3 h4 g3 g4
  have e1 := Opening.proceed.inj h1
  have e2 := Opening.proceed.inj g1
  subst e1 e2
  have q1 := Option.some.inj h2
  have q2 := Option.some.inj g2
  subst q1 q2
  refine ⟨⟨rfl, rfl, ⟨rfl, rfl⟩, ⟨rfl, rfl, rfl⟩, ⟨rfl, rfl, rfl⟩, by decide +kernel⟩, ⟨?_, ?_, nofun⟩, ⟨?_, ?_, nofun⟩⟩
  all_goals
    intro p hp
    have := Option.some.inj hp
    subst this
    decide +kernel

theorem started_cfg (h : Started Ec Es) : ∃ hb, Ec.cfg = { clientConfig 0 with heartbeatInfo := some hb } := by
  obtain ⟨⟨S, hc⟩, -⟩ := h
  obtain ⟨n, k, hb, -, -, -, h1, -⟩ := (c100_started S "m3ua" (clientConfig 0) Ec).mp hc
  exact ⟨_, (Opening.proceed.inj h1).symm⟩

/-- C113: the bytes of the messages of the example client: ASP Up, ASP Active, and DATA for the payload `d`. -/
theorem c113_bytes (h : Started Ec Es) (d : Bytes) :
    exampleClient.clientSends.map (·.1) = [
      [1, 0, 3, 1, 0, 0, 0, 16, 0, 0x11, 0, 8, 0, 0, 0, 1],
      [1, 0, 4, 1, 0, 0, 0, 28, 0, 0x0b, 0, 8, 0, 0, 0, 2, 0, 6, 0, 12, 0, 0, 0, 1, 0, 0, 0, 2]] ∧
    dataOf Ec.cfg d = message 1 1 1 [tlv 0x200 [0, 0, 0, 0], tlv 6 [0, 0, 0, 1, 0, 0, 0, 2],
      tlv 0x210 ([0x11, 0x11, 0x11, 0x11, 0x22, 0x22, 0x22, 0x22, 3, 0, 0, 1] ++ d)] ∧
    ((dataOf Ec.cfg d).length ≤ 1500 ↔ d.length ≤ 1456) := by
  have e : dataOf Ec.cfg d = message 1 1 1 [tlv 0x200 [0, 0, 0, 0], tlv 6 [0, 0, 0, 1, 0, 0, 0, 2],
      tlv 0x210 ([0x11, 0x11, 0x11, 0x11, 0x22, 0x22, 0x22, 0x22, 3, 0, 0, 1] ++ d)] := by
    obtain ⟨hb, he⟩ := started_cfg h
    have e1 : tv (clientConfig 0).networkAppearance = some (0x200, [0, 0, 0, 0]) := by decide +kernel
    have e2 : tv (clientConfig 0).routingContexts = some (6, [0, 0, 0, 1, 0, 0, 0, 2]) := by decide +kernel
    have e3 : tv (clientConfig 0).correlationID = none := by decide +kernel
    have e4 : be32 (clientConfig 0).originatingPointCode.toNat ++ be32 (clientConfig 0).destinationPointCode.toNat ++
      [UInt8.ofNat (clientConfig 0).serviceIndicator.toNat, UInt8.ofNat (clientConfig 0).networkIndicator.toNat,
        UInt8.ofNat (clientConfig 0).messagePriority.toNat, UInt8.ofNat (clientConfig 0).signalingLinkSelection.toNat] =
      [0x11, 0x11, 0x11, 0x11, 0x22, 0x22, 0x22, 0x22, 3, 0, 0, 1] := by decide +kernel
    rw [he]
    simp only [dataOf, dataWith, protocolData, e1, e2, e3, e4, presentTlvs]
  clear h
  refine ⟨by decide +kernel, e, ?_⟩
  rw [e]
  simp only [message, tlv, List.length_append, List.length_cons, List.length_nil, List.flatten_cons, List.flatten_nil, List.length_replicate, be32, be16, pad]
  omega

open Classical in
/-- C113: whatever the schedule and whatever else goes wrong: `Read` of the example server gives the payload of the example client, whole, or fails with
`ErrNotEstablished`; there is no other result, in particular not `io.EOF`. -/
theorem c113_read (h : Started Ec Es) {p : Link} (hp : Link.Reachable Ec Es p) {d : Bytes} (hd : 12 + d.length ≤ maxValue) (hw : OnlyWrites d p.a)
    (hs : ∀ s ∈ sends p.a.trace, s.bytes.length ≤ 1500) {i : Nat} {t : Thread} (ht : p.b.threads[i]? = some t) (hr : OnlyReads p.b)
    (hu : ofUser t.gor = true) {res : ApiRes} (hm : res ∈ returns (p.b.of i)) : res = .data d.length d ∨ res = .fail .notEstablished := by
  have hc := hr t (List.mem_of_getElem? ht) hu
  rcases c111_read hp.ends.2 ht (by decide) hc hm with ⟨pd, -, rfl, -⟩ | h'
  · have hplain : PlainUser p.a := fun t ht => by
      have := hw t ht
      split
      · rename_i b hg; rw [hg] at this; cases this rfl; exact hd
      · rename_i b s hg; rw [hg] at this; cases this rfl
      · rename_i b hg; rw [hg] at this; cases this rfl
      · rename_i b s hg; rw [hg] at this; cases this rfl
      · rename_i b hg; rw [hg] at this; cases this rfl
      · trivial
    have h1 := c82_write hp hs (c113_setup h).2.1 hplain pd.data
    have h2 : ApiRes.data pd.data.length pd.data ∈ returns p.b.trace := by
      obtain ⟨x, hx, hx'⟩ := List.mem_filterMap.mp hm
      exact List.mem_filterMap.mpr ⟨x, (List.mem_filter.mp hx).1, hx'⟩
    have h3 : 0 < (returns p.b.trace).countP (fun res => decide (res = .data pd.data.length pd.data ∨ ∃ pd', res = .pd pd' ∧ pd'.data = pd.data)) :=
      List.countP_pos_iff.mpr ⟨_, h2, by simp⟩
    obtain ⟨t', ht', hg⟩ := List.countP_pos_iff.mp (Nat.lt_of_lt_of_le h3 h1)
    simp only [decide_eq_true_iff] at hg
    rcases hg with hg | ⟨s, hg⟩
    · have := hw t' ht' (by rw [hg]; rfl)
      rw [hg] at this
      cases this
      exact .inl rfl
    · have := hw t' ht' (by rw [hg]; rfl)
      rw [hg] at this
      cases this
  · exact .inr h'

/-- C113: undisturbed, the two programs come to rest, and whenever they do, the server has got, or has queued, the payload as often as the client has called
`Write`; with all that was in the client's configuration. -/
theorem c113_outcome (h : Started Ec Es) (hn : Ec.maxStream ≠ 0 ∧ Es.maxStream ≠ 0) {p : Link} (hp : Link.Reachable Ec Es p) (hsm : Smooth p) {d : Bytes}
    (hd : d.length ≤ 1456) (hw : OnlyWrites d p.a) (hr : OnlyReads p.b)
    (hc : (∀ x ∈ sends p.a.trace, x.answer ≠ none) ∧ ∀ x ∈ sends p.b.trace, x.answer ≠ none)
    (hu : userCalls p.a < 65535 ∧ userCalls p.b < 65535) :
    (∃ n q, Smoothly Ec Es n p q ∧ Stopped Ec Es q) ∧
    ∀ n q, Smoothly Ec Es n p q → Stopped Ec Es q →
      let pd : ProtocolDataPayload := ⟨0x11111111, 0x22222222, 3, 0, 0, 1, d⟩
      (takes q.b.trace).count (some pd) + q.b.sh.dataQ.count pd = userCalls p.a := by
  obtain ⟨hs, hd1, hd2⟩ := c113_setup h
  have hl := (c113_bytes h d).2.2.mpr hd
  have w1 : Writer Ec.cfg p.a := fun t ht => by
    have := hw t ht
    split
    · rename_i b hg; rw [hg] at this; cases this rfl; exact ⟨by simp only [maxValue]; omega, hl⟩
    all_goals first | trivial | (rename_i hg; rw [hg] at this; cases this rfl)
  have w2 : Writer Es.cfg p.b := fun t ht => by
    have := hr t ht
    split
    all_goals first | trivial | (rename_i hg; rw [hg] at this; cases this rfl)
  obtain ⟨h1, h2⟩ := c88_outcome hs hn hp hsm ⟨hd1, hd2⟩ ⟨w1, w2⟩ hc hu
  refine ⟨h1, fun n q hq hq' => ?_⟩
  have h3 := (h2 n q hq hq' d).1
  have e : payloadFor Ec.cfg d = ⟨0x11111111, 0x22222222, 3, 0, 0, 1, d⟩ := by
    obtain ⟨hb, he⟩ := started_cfg h
    rw [he]; rfl
  rw [e] at h3
  refine h3.trans ?_
  rw [userCalls, List.countP_map]
  refine List.countP_congr fun t ht => ?_
  constructor
  · intro hg
    show ofUser t.gor = true
    cases hgo : t.gor <;> simp_all [Spec.writing, ofUser]
  · intro hg
    have := hw t ht hg
    rw [this]
    simp [Spec.writing]

/-- What becomes of a configuration with heartbeats: they are disabled if the interval is zero. -/
theorem open_beat (cfg : Config) {i t : Int} {d : Bytes} (h : cfg.heartbeatInfo = some ⟨true, i, t, d⟩) :
    acceptOpen cfg = .proceed { cfg with heartbeatInfo := some ⟨decide (i ≠ 0), i, t, d⟩ } := by
  obtain ⟨⟩ := cfg
  simp only at h
  subst h
  by_cases hi : i = 0 <;> simp [acceptOpen, checkInterval, hi]

theorem start_beat {cfg cfg' : Config} {i t : Int} {d : Bytes} {hb : HeartbeatInfo} (h : cfg.heartbeatInfo = some ⟨true, i, t, d⟩)
    (h1 : acceptOpen cfg = .proceed cfg') (h2 : cfg'.heartbeatInfo = some hb) :
    cfg' = { cfg with heartbeatInfo := some ⟨decide (i ≠ 0), i, t, d⟩ } ∧ hb = ⟨decide (i ≠ 0), i, t, d⟩ := by
  rw [open_beat cfg h] at h1
  have := Opening.proceed.inj h1
  subst this
  exact ⟨rfl, (Option.some.inj h2).symm⟩

/-- C113: the two ways in which the example client and `README.md` make the configuration give the same, except for the data in `HeartbeatInfo`, which make no
difference (C116): what `Dial` starts is in both cases the same connection up to these data. -/
theorem c113_ways (hbInt : Int) (S : Sctp) (E : Env) :
    (dial S "m3ua" (some (otherClientConfig hbInt))).1 = .running E ↔
      ∃ E', (dial S "m3ua" (some (clientConfig hbInt))).1 = .running E' ∧ E = E'.withData [] := by
  constructor
  · intro h
    obtain ⟨n, k, hb, h1, h2, h3, h4, h5, h6, h7, h8⟩ := (c100_started S "m3ua" _ E).mp h
    obtain ⟨a1, a2⟩ := start_beat (cfg := otherClientConfig hbInt) rfl h4 h5
    obtain ⟨mode, cfg, ehb, ms⟩ := E
    simp only at h6 h7 a1 h8
    subst h6 h7 a1 a2
    refine ⟨⟨.client, { clientConfig hbInt with heartbeatInfo := some ⟨decide (hbInt ≠ 0), hbInt, 10000000000, Config.defaultBeat⟩ },
      ⟨decide (hbInt ≠ 0), hbInt, 10000000000, Config.defaultBeat⟩, ms⟩, ?_, rfl⟩
    exact (c100_started S "m3ua" _ _).mpr ⟨n, k, _, h1, h2, h3, open_beat (clientConfig hbInt) rfl, rfl, rfl, rfl, h8⟩
  · rintro ⟨E', h, rfl⟩
    obtain ⟨n, k, hb, h1, h2, h3, h4, h5, h6, h7, h8⟩ := (c100_started S "m3ua" _ E').mp h
    obtain ⟨a1, a2⟩ := start_beat (cfg := clientConfig hbInt) rfl h4 h5
    obtain ⟨mode, cfg, ehb, ms⟩ := E'
    simp only at h6 h7 a1 h8
    subst h6 h7 a1 a2
    exact (c100_started S "m3ua" _ _).mpr ⟨n, k, _, h1, h2, h3, open_beat (otherClientConfig hbInt) rfl, rfl, rfl, rfl, h8⟩

/-- C113: with heartbeats, whatever the intervals and the server's timer, the two programs are partners as in C96, if each association has more than one stream.
A side sends heartbeats exactly if its interval is not zero, the client with a timer of 10 seconds. -/
theorem c113_beats {S S' : Sctp} {hbInt hbInt' timer : Int} (hc : (dial S "m3ua" (some (clientConfig hbInt))).1 = .running Ec)
    (hs : (accept S' (some (serverConfig hbInt' timer))).1 = .running Es) (hn : Ec.maxStream ≠ 0 ∧ Es.maxStream ≠ 0) :
    Partners Ec Es exampleClient exampleServer ∧ DataConfig Ec.cfg ∧ DataConfig Es.cfg ∧
    (Ec.hb.enabled = true ↔ hbInt ≠ 0) ∧ Ec.hb.interval = hbInt ∧ Ec.hb.timer = 10000000000 ∧
    (Es.hb.enabled = true ↔ hbInt' ≠ 0) ∧ Es.hb.interval = hbInt' ∧ Es.hb.timer = timer := by
  obtain ⟨n, k, hb, -, -, -, h1, h2, h3, h4, -⟩ := (c100_started S "m3ua" (clientConfig hbInt) Ec).mp hc
  obtain ⟨k', hb', -, -, g1, g2, g3, g4, -⟩ := (c100_accept_started S' (serverConfig hbInt' timer) Es).mp hs
  obtain ⟨a1, a2⟩ := start_beat (cfg := clientConfig hbInt) rfl h1 h2
  obtain ⟨b1, b2⟩ := start_beat (cfg := serverConfig hbInt' timer) rfl g1 g2
  obtain ⟨mode, cfg, ehb, ms⟩ := Ec
  obtain ⟨mode', cfg', ehb', ms'⟩ := Es
  simp only at h3 h4 g3 g4 a1 b1 hn
  subst h3 h4 g3 g4 a1 b1 a2 b2
  refine ⟨⟨rfl, rfl, ⟨rfl, rfl, rfl⟩, ⟨rfl, rfl, rfl⟩, by decide +kernel, hn⟩, ⟨?_, ?_, nofun⟩, ⟨?_, ?_, nofun⟩, by simp, rfl, rfl, by simp, rfl, rfl⟩
  all_goals
    intro p hp
    have := Option.some.inj hp
    subst this
    decide +kernel

/-- For `c113_beats` and `c113_ways`: with heartbeats every 5 seconds on both sides, and SCTP associations with four streams. -/
example : ∃ Ec Es, (dial quiet "m3ua" (some (clientConfig 5000000000))).1 = .running Ec ∧
    (accept quiet (some (serverConfig 5000000000 5000000000))).1 = .running Es ∧ Ec.maxStream = 3 ∧ Es.maxStream = 3 ∧
    Ec.hb = ⟨true, 5000000000, 10000000000, Config.defaultBeat⟩ ∧
    (dial quiet "m3ua" (some (otherClientConfig 5000000000))).1 = .running (Ec.withData []) :=
  ⟨⟨.client, { clientConfig 5000000000 with heartbeatInfo := some ⟨true, 5000000000, 10000000000, Config.defaultBeat⟩ },
      ⟨true, 5000000000, 10000000000, Config.defaultBeat⟩, 3⟩,
    ⟨.server, { serverConfig 5000000000 5000000000 with heartbeatInfo := some ⟨true, 5000000000, 5000000000, []⟩ },
      ⟨true, 5000000000, 5000000000, []⟩, 3⟩, rfl, rfl, rfl, rfl, rfl, rfl⟩

/-- What `Dial` of the example client, and `Accept` of the example server, start over SCTP associations with four streams. -/
def exampleEnv (m : Mode) (cfg : Config) : Env :=
  let hb := { cfg.heartbeatInfo.getD ⟨false, 0, 0, []⟩ with enabled := false }
  ⟨m, { cfg with heartbeatInfo := some hb }, hb, 3⟩

/-- For the theorems on C113: the two programs are started, the server has called `Read`; the client has written deadbeef, and the server gets it. -/
example : Started (exampleEnv .client (clientConfig 0)) (exampleEnv .server (serverConfig 0 5000000000)) ∧
    ∃ p, Link.Reachable (exampleEnv .client (clientConfig 0)) (exampleEnv .server (serverConfig 0 5000000000)) p ∧
      ((p.a.threads.map Thread.gor).filter ofUser, (p.b.threads.map Thread.gor).filter ofUser, p.a.out.map List.length, returns p.b.trace) =
        ([.api (.write [0xde, 0xad, 0xbe, 0xef])], [.api (.read 1500)], [16, 28, 48], [.data 4 [0xde, 0xad, 0xbe, 0xef]]) := by
  refine ⟨⟨⟨quiet, rfl⟩, quiet, 5000000000, rfl⟩, ?_⟩
  exact link_of (f := fun p => ((p.a.threads.map Thread.gor).filter ofUser, (p.b.threads.map Thread.gor).filter ofUser, p.a.out.map List.length, returns p.b.trace))
    (cs := shake ++ onA ([.call (.write [0xde, 0xad, 0xbe, 0xef]), .run 6 (.std 2)] ++ go 6 4) ++
      .toB 0 :: onB (go 2 2 ++ [.loop 2] ++ go 6 2 ++ go 7 2 ++ [.call (.read 1500)] ++ go 8 3))
    (by kernel_rfl)

/-- For `c113_outcome`: the client has called `Write` twice, the server `Read` once, nothing has been done about it yet. -/
example : ∃ p, Link.Reachable (exampleEnv .client (clientConfig 0)) (exampleEnv .server (serverConfig 0 5000000000)) p ∧ Smooth p ∧
    OnlyWrites [0xde, 0xad] p.a ∧ OnlyReads p.b ∧ (∀ x ∈ sends p.a.trace, x.answer ≠ none) ∧ (∀ x ∈ sends p.b.trace, x.answer ≠ none) ∧
    userCalls p.a = 2 ∧ userCalls p.b = 1 := by
  obtain ⟨p, h1, h2⟩ := link_of (Ea := exampleEnv .client (clientConfig 0)) (Eb := exampleEnv .server (serverConfig 0 5000000000)) (f := fun p =>
      ((p.a.sh.ctxDone, p.a.trace.all (fun x => x.gor ≠ .api .close), p.a.trace.all (fun x => !ofUser x.gor && x.ev.calm),
        arrived p.a, p.a.out, (sends p.a.trace).all (fun x => x.answer ≠ none), (p.a.threads.map Thread.gor).filter ofUser),
      (p.b.sh.ctxDone, p.b.trace.all (fun x => x.gor ≠ .api .close), p.b.trace.all (fun x => !ofUser x.gor && x.ev.calm),
        arrived p.b, p.b.out, (sends p.b.trace).all (fun x => x.answer ≠ none), (p.b.threads.map Thread.gor).filter ofUser)))
    (cs := shake ++ onA (go 3 1) ++ onB (go 3 1) ++ onA [.call (.write [0xde, 0xad]), .call (.write [0xde, 0xad])] ++ onB [.call (.read 1500)])
    (v := ((false, true, true, exampleServer.serverSends.map (·.1), exampleClient.clientSends.map (·.1), true,
        [.api (.write [0xde, 0xad]), .api (.write [0xde, 0xad])]),
      (false, true, true, exampleClient.clientSends.map (·.1), exampleServer.serverSends.map (·.1), true, [.api (.read 1500)]))) (by kernel_rfl)
  simp only [Prod.mk.injEq] at h2
  obtain ⟨⟨a1, a2, a3, a4, a5, a6, a7⟩, b1, b2, b3, b4, b5, b6, b7⟩ := h2
  have peaceful : ∀ {w : World}, w.sh.ctxDone = false → (w.trace.all fun x => decide (x.gor ≠ .api .close)) = true →
      (w.trace.all fun x => !ofUser x.gor && x.ev.calm) = true → Peaceful w := by
    intro w h1 h2 h3
    refine ⟨h1, by simpa using h2, fun x hx _ => ?_, fun x hx hu => ?_⟩
    · have := List.all_eq_true.mp h3 x hx
      simp only [Bool.and_eq_true] at this
      exact this.2
    · have := List.all_eq_true.mp h3 x hx
      simp [hu] at this
  have users : ∀ {w : World} {g : Gor} {l : List Gor}, (w.threads.map Thread.gor).filter ofUser = l → (∀ x ∈ l, x = g) →
      ∀ t ∈ w.threads, ofUser t.gor = true → t.gor = g :=
    fun h hl t ht hu => hl _ (h ▸ List.mem_filter.mpr ⟨List.mem_map_of_mem ht, hu⟩)
  exact ⟨p, h1, ⟨peaceful a1 a2 a3, peaceful b1 b2 b3, by rw [b4, a5]; exact ⟨[], rfl⟩, by rw [a4, b5]; exact ⟨[], rfl⟩⟩,
    users a7 (by simp), users b7 (by simp), by simpa using a6, by simpa using b6,
    by rw [userCalls, List.countP_eq_length_filter, a7]; rfl, by rw [userCalls, List.countP_eq_length_filter, b7]; rfl⟩

end M3.Conn
