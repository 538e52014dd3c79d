import Verif.Model.Conn.Setup
import Verif.Props.Config
import Verif.Props.Conn.Closing
import Verif.Props.Conn.Always
import Verif.Lemmas.Conn.Role

/- `Dial`, `Listen` and `Accept` from their beginning: C100. -/

set_option autoImplicit false
set_option linter.unusedSimpArgs false

namespace M3.Spec

open M3.Conn

/-- The errors `Dial` may return for a network name and answers of SCTP. -/
def DialFails (S : Sctp) (net : String) (e : GoErr) : Prop :=
  ((∀ n, (net, n) ∉ knownNetworks) ∧ e = .other ("invalid network: " ++ net)) ∨
  ∃ n, (net, n) ∈ knownNetworks ∧
    (S.dial n = some e ∨
     (S.dial n = none ∧ ∃ x, S.status = .error x ∧ e = .wrap "failed to get sctpConn status" x) ∨
     (S.dial n = none ∧ ∃ k, S.status = .ok k ∧ (e = .var .failedToEstablish ∨ e = .var .timeout)))

/-- The errors `Accept` may return. -/
def AcceptFails (S : Sctp) (e : GoErr) : Prop :=
  S.accept = .error e ∨ (S.accept = .ok false ∧ e = .other "failed to assert server connection") ∨
  (S.accept = .ok true ∧ ∃ x, S.status = .error x ∧ e = .wrap "failed to get sctpConn status" x) ∨
  (S.accept = .ok true ∧ ∃ k, S.status = .ok k ∧ (e = .var .failedToEstablish ∨ e = .var .timeout))

/-- The association was closed: by the call itself, or by the connection. -/
def AssocClosed (calls : List SctpCall) (w : Option World) : Prop := .close ∈ calls ∨ ∃ w', w = some w' ∧ shut w'.trace

end M3.Spec

namespace M3.Conn

open Spec

theorem opened_shut {E : Env} {w : World} (h : Reachable E w) {x : Rec} {r : OpenRes} (hx : x ∈ w.trace) (ho : x.ev.op = .opened r)
    (hr : r ≠ .conn) : shut w.trace := by
  obtain ⟨l₁, l₂, hl⟩ := List.append_of_mem hx
  obtain ⟨i, g, ⟨o, a⟩⟩ := x
  simp only at ho
  subst ho
  have hg : g = .main := by simpa [Role.role] using (Role.reach h _ hx).2
  subst hg
  rcases h.at hl with ⟨w₀, sh', k, hist, h₀, rfl, ht, he⟩ | ⟨w₀, sh', ⟨_, _, oy, ry⟩, h₀, ⟨rfl, hy⟩ | ⟨rfl, hy⟩⟩
  · obtain ⟨hp, hof⟩ := Follows.once h₀ ht rfl rfl
    simp only at hp hof
    suffices hb : ∃ b : Bool, (⟨.sctpClose, b⟩ : Ev) ∈ hist by
      obtain ⟨b, hb⟩ := hb
      have : (⟨i, .main, ⟨.sctpClose, b⟩⟩ : Rec) ∈ w₀.of i := by rw [hof]; exact List.mem_map.mpr ⟨_, hb, rfl⟩
      exact ⟨_, by rw [hl]; exact List.mem_append_left _ (List.mem_filter.mp this).1, rfl⟩
    rcases Path.op_iff.mp hp with ⟨-, h2⟩ | ⟨ev, l, rfl, hp₁⟩
    · cases h2
    cases ev with
    | ok =>
      rcases Path.op_iff.mp hp₁ with ⟨-, h2⟩ | ⟨_, l, rfl, hp₂⟩
      · cases h2; exact absurd rfl hr
      · cases (Path.ret_iff.mp hp₂).2
    | closed =>
      rcases Path.op_iff.mp hp₁ with ⟨-, h2⟩ | ⟨b, l, rfl, hp₂⟩
      · cases h2
      · exact ⟨b, by simp⟩
    | timeout =>
      rcases Path.op_iff.mp hp₁ with ⟨-, h2⟩ | ⟨b, l, rfl, hp₂⟩
      · cases h2
      · exact ⟨b, by simp⟩
  · cases hy
  · cases hy

/-- `Dial` and `Accept` may return either error, whatever the configuration. -/
theorem opened_errors (E : Env) (r : OpenRes) : ∃ w x, Reachable E w ∧ x ∈ w.trace ∧ x.ev.op = .opened r := by
  have get : ∀ (cs : List Choice), (play (body' E) (init E) cs).map (fun w => (w.of 0).map fun x => x.ev.op) = some [.estSelect, .sctpClose, .opened r] ∨
      (play (body' E) (init E) cs).map (fun w => (w.of 0).map fun x => x.ev.op) = some [.estSelect, .opened r] →
      ∃ w x, Reachable E w ∧ x ∈ w.trace ∧ x.ev.op = .opened r := by
    intro cs h
    have : ∃ w, Reachable E w ∧ Op.opened r ∈ (w.of 0).map fun x => x.ev.op := by
      rcases h with h | h <;>
      · obtain ⟨w, hr, hv⟩ := reach_of (f := fun w : World => (w.of 0).map fun x => x.ev.op) h
        exact ⟨w, hr, by rw [hv]; simp⟩
    obtain ⟨w, hr, hm⟩ := this
    obtain ⟨x, hx, he⟩ := List.mem_map.mp hm
    exact ⟨w, x, hr, (List.mem_filter.mp hx).1, he⟩
  cases r with
  | conn =>
    refine get (opening E.mode) (.inr ?_)
    obtain ⟨mode, cfg, hb, ms⟩ := E
    cases mode <;> kernel_rfl
  | timeout => exact get ([.run 0 .timer] ++ go 0 2) (.inl (by kernel_rfl))
  | failedToEstablish =>
    refine get (boot E.mode ++ [.deliver [1, 0, 3, 4, 0, 0, 0, 8]] ++ go 2 2 ++ [.loop 2] ++ go 4 3 ++ [.sync 4 2] ++ (match E.mode with
      | .client => go 2 6
      | .server => go 2 4) ++ [.run 2 .fail] ++ go 2 8 ++ [.run 0 .closed] ++ go 0 2) (.inl ?_)
    obtain ⟨mode, cfg, hb, ms⟩ := E
    cases mode <;> kernel_rfl

theorem running_returns (E : Env) (e : GoErr) : (∃ w, (Begun.running E).Returns (.error e) w) ↔ e = .var .failedToEstablish ∨ e = .var .timeout := by
  constructor
  · rintro ⟨w, h⟩
    generalize hr : Returned.error e = r at h
    cases h with
    | running h1 h2 h3 =>
      rename_i r'
      cases r' <;> simp only [OpenRes.returned, reduceCtorEq, Returned.error.injEq] at hr
      · exact .inl hr
      · exact .inr hr
  · rintro (rfl | rfl)
    · obtain ⟨w, x, h1, h2, h3⟩ := opened_errors E .failedToEstablish
      exact ⟨some w, .running h1 h2 h3⟩
    · obtain ⟨w, x, h1, h2, h3⟩ := opened_errors E .timeout
      exact ⟨some w, .running h1 h2 h3⟩

theorem failed_returns (e' e : GoErr) : (∃ w, (Begun.failed e').Returns (.error e) w) ↔ e = e' :=
  ⟨fun ⟨_, h⟩ => by cases h; rfl, fun h => h ▸ ⟨none, .failed _⟩⟩

theorem begin_returns (S : Sctp) (mode : Mode) (cfg : Config) (hb : HeartbeatInfo) (e : GoErr) :
    (∃ w, (begin S mode cfg hb).1.Returns (.error e) w) ↔
      ((∃ x, S.status = .error x ∧ e = .wrap "failed to get sctpConn status" x) ∨
        ∃ k, S.status = .ok k ∧ (e = .var .failedToEstablish ∨ e = .var .timeout)) := by
  unfold begin
  cases S.status with
  | error x => simp [failed_returns]
  | ok k => simp [running_returns]

theorem interval_ok (cfg : Config) (hb : HeartbeatInfo) (hc : cfg.heartbeatInfo = some hb) :
    ∃ cfg' hb', checkInterval cfg = .proceed cfg' ∧ cfg'.heartbeatInfo = some hb' := by
  unfold checkInterval
  rw [hc]
  by_cases h0 : hb.interval = 0
  · exact ⟨_, _, if_pos h0, rfl⟩
  · exact ⟨cfg, hb, if_neg h0, hc⟩

/-- How `Dial` goes on once it knows the network and the heartbeat parameters. -/
theorem dial_eq (S : Sctp) (net : String) (cfg : Config) (hb : HeartbeatInfo) (hc : cfg.heartbeatInfo = some hb) :
    (netMap net = none ∧ dial S net (some cfg) = (.failed (.other ("invalid network: " ++ net)), [])) ∨
    ∃ n cfg' hb', netMap net = some n ∧ acceptOpen cfg = .proceed cfg' ∧ cfg'.heartbeatInfo = some hb' ∧ dial S net (some cfg) = match S.dial n with
      | some e => (.failed e, [.dial n])
      | none => ((begin S .client cfg' hb').1, .dial n :: (begin S .client cfg' hb').2) := by
  obtain ⟨cfg', hb', h1, h2⟩ := interval_ok cfg hb hc
  unfold dial dialOpen acceptOpen
  cases hm : netMap net with
  | none => left; simp only [h1, and_self]
  | some n =>
    refine .inr ⟨n, cfg', hb', rfl, h1, h2, ?_⟩
    simp only [h1, h2]
    cases S.dial n <;> rfl

theorem accept_eq (S : Sctp) (cfg : Config) (hb : HeartbeatInfo) (hc : cfg.heartbeatInfo = some hb) :
    ∃ cfg' hb', acceptOpen cfg = .proceed cfg' ∧ cfg'.heartbeatInfo = some hb' ∧ accept S (some cfg) = match S.accept with
      | .error e => (.failed e, [.accept])
      | .ok false => (.failed (.other "failed to assert server connection"), [.accept, .close])
      | .ok true => ((begin S .server cfg' hb').1, .accept :: (begin S .server cfg' hb').2) := by
  obtain ⟨cfg', hb', h1, h2⟩ := interval_ok cfg hb hc
  refine ⟨cfg', hb', h1, h2, ?_⟩
  unfold accept acceptOpen
  simp only [h1, h2]
  cases S.accept with
  | error e => rfl
  | ok b => cases b <;> rfl

/-- C100: the errors `Dial` returns are exactly those of `DialFails`; each can occur. -/
theorem c100_dial (S : Sctp) (net : String) (cfg : Config) (hb : HeartbeatInfo) (hc : cfg.heartbeatInfo = some hb) (e : GoErr) :
    (∃ w, (dial S net (some cfg)).1.Returns (.error e) w) ↔ DialFails S net e := by
  unfold DialFails
  rw [← netMap_none]
  simp only [← netMap_iff]
  rcases dial_eq S net cfg hb hc with ⟨hm, hd⟩ | ⟨n, cfg', hb', hm, -, -, hd⟩
  · rw [hd, failed_returns]; simp [hm]
  · rw [hd, hm]
    cases hs : S.dial n with
    | some x => simp [hs, failed_returns, eq_comm]
    | none => simp [hs, begin_returns]

/-- C100: likewise for `Accept`. -/
theorem c100_accept (S : Sctp) (cfg : Config) (hb : HeartbeatInfo) (hc : cfg.heartbeatInfo = some hb) (e : GoErr) :
    (∃ w, (accept S (some cfg)).1.Returns (.error e) w) ↔ AcceptFails S e := by
  unfold AcceptFails
  obtain ⟨cfg', hb', -, -, hd⟩ := accept_eq S cfg hb hc
  rw [hd]
  cases hs : S.accept with
  | error x => simp [failed_returns, eq_comm]
  | ok b => cases b <;> simp [failed_returns, begin_returns]

/-- C100: `Listen` fails exactly if the network is unknown or SCTP cannot listen. -/
theorem c100_listen (S : Sctp) (net : String) (e : GoErr) : (listen S net).1 = some e ↔
    ((∀ n, (net, n) ∉ knownNetworks) ∧ e = .other ("invalid network: " ++ net)) ∨
    ∃ n x, (net, n) ∈ knownNetworks ∧ S.listen n = some x ∧ e = .wrap "failed to listen SCTP" x := by
  rw [← netMap_none]
  simp only [← netMap_iff]
  unfold listen
  cases hm : netMap net with
  | none => simp [eq_comm]
  | some n => cases hs : S.listen n <;> simp [hs, eq_comm]

theorem Begun.closed {b : Begun} {e : GoErr} {w : Option World} (h : b.Returns (.error e) w) :
    (∃ w', w = some w' ∧ shut w'.trace) ↔ ∃ E, b = .running E := by
  generalize hr : Returned.error e = r at h
  cases h with
  | panic => cases hr
  | failed e => simp
  | running h1 h2 h3 =>
    rename_i E w' x r'
    refine ⟨fun _ => ⟨E, rfl⟩, fun _ => ⟨w', rfl, opened_shut h1 h2 h3 ?_⟩⟩
    rintro rfl; cases hr

/-- C100: if `Dial` fails after SCTP has opened an association, the association was closed, unless SCTP could not tell its status. -/
theorem c100_closed (S : Sctp) (net n : String) (cfg : Config) (hn : (net, n) ∈ knownNetworks) (ha : S.dial n = none) {e : GoErr} {w : Option World}
    (h : (dial S net (some cfg)).1.Returns (.error e) w) : AssocClosed (dial S net (some cfg)).2 w ↔ ∃ k, S.status = .ok k := by
  rw [← netMap_iff] at hn
  cases hc : cfg.heartbeatInfo with
  | none =>
    simp only [dial, dialOpen, checkInterval, hc] at h
    cases h
  | some hb =>
    rcases dial_eq S net cfg hb hc with ⟨hm, hd⟩ | ⟨n', cfg', hb', hm, -, -, hd⟩
    · rw [hm] at hn; cases hn
    · rw [hm] at hn; cases hn
      rw [ha] at hd
      rw [hd] at h ⊢
      simp only [AssocClosed, Begun.closed h]
      unfold begin
      cases S.status <;> simp

/-- C100: the same for `Accept`. -/
theorem c100_accept_closed (S : Sctp) (cfg : Config) {b : Bool} (ha : S.accept = .ok b) {e : GoErr} {w : Option World}
    (h : (accept S (some cfg)).1.Returns (.error e) w) : AssocClosed (accept S (some cfg)).2 w ↔ (b = false ∨ ∃ k, S.status = .ok k) := by
  cases hc : cfg.heartbeatInfo with
  | none =>
    simp only [accept, acceptOpen, checkInterval, hc] at h
    cases h
  | some hb =>
    obtain ⟨cfg', hb', -, -, hd⟩ := accept_eq S cfg hb hc
    rw [ha] at hd
    cases b with
    | false => simp only at hd; rw [hd]; simp [AssocClosed]
    | true =>
      simp only at hd
      rw [hd] at h ⊢
      simp only [AssocClosed, Begun.closed h]
      unfold begin
      cases S.status <;> simp

/-- C100: an association that `Dial` opens is not always closed when it fails. -/
theorem c100_leak : ∃ (S : Sctp) (net n : String) (cfg : Config) (e : GoErr) (w : Option World), (net, n) ∈ knownNetworks ∧ S.dial n = none ∧
    (dial S net (some cfg)).1.Returns (.error e) w ∧ ¬ AssocClosed (dial S net (some cfg)).2 w := by
  refine ⟨⟨fun _ => none, fun _ => none, .ok true, .error (.other "EINVAL")⟩, "m3ua", "sctp", { Config.new 1 2 3 0 0 0 with heartbeatInfo := some ⟨false, 0, 0, []⟩ },
    _, none, by decide, rfl, .failed _, ?_⟩
  rintro (h | ⟨w, h, -⟩)
  · revert h; decide
  · cases h

/-- C100: before it starts a connection, `Dial` panics exactly if there is no configuration or it has no `HeartbeatInfo`. -/
theorem c100_panic (S : Sctp) (net : String) (cfg : Option Config) : (dial S net cfg).1 = .panic ↔ ∀ c, cfg = some c → c.heartbeatInfo = none := by
  cases cfg with
  | none => simp [dial]
  | some cfg =>
    cases hc : cfg.heartbeatInfo with
    | none => simp [dial, dialOpen, checkInterval, hc]
    | some hb =>
      rcases dial_eq S net cfg hb hc with ⟨hm, hd⟩ | ⟨n', cfg', hb', hm, h1, h2, hd⟩
      · simp [hd, hc]
      · rw [hd]
        unfold begin
        cases S.dial n' <;> cases S.status <;> simp [hc]

/-- C100: a connection is started exactly if SCTP has opened an association and told its status. It knows the number of outbound streams; `MaxMessageStreamID`
is one less (modulo 65536), and it has the configuration of C39. -/
theorem c100_started (S : Sctp) (net : String) (cfg : Config) (E : Env) : (dial S net (some cfg)).1 = .running E ↔
    ∃ n k hb, (net, n) ∈ knownNetworks ∧ S.dial n = none ∧ S.status = .ok k ∧ acceptOpen cfg = .proceed E.cfg ∧ E.cfg.heartbeatInfo = some hb ∧
      E.hb = hb ∧ E.mode = .client ∧ E.maxStream + 1 = k := by
  simp only [← netMap_iff]
  cases hc : cfg.heartbeatInfo with
  | none => simp [dial, dialOpen, acceptOpen, checkInterval, hc]
  | some hb =>
    rcases dial_eq S net cfg hb hc with ⟨hm, hd⟩ | ⟨n', cfg', hb', hm, h1, h2, hd⟩
    · simp [hd, hm]
    · rw [hd, hm, h1]
      obtain ⟨mode, ecfg, ehb, ms⟩ := E
      cases hs : S.dial n' with
      | some e => simp [hs]
      | none =>
        unfold begin
        cases hk : S.status with
        | error x => simp [hs]
        | ok k =>
          simp only [hs, Begun.running.injEq, Env.mk.injEq, Option.some.injEq, Opening.proceed.injEq]
          constructor
          · rintro ⟨rfl, rfl, rfl, rfl⟩
            exact ⟨n', k, hb', rfl, hs, rfl, rfl, h2, rfl, rfl, by simp⟩
          · rintro ⟨n, k', hb'', rfl, -, hk', rfl, h3, rfl, rfl, h4⟩
            rw [h2] at h3
            cases h3; cases hk'
            refine ⟨rfl, rfl, rfl, ?_⟩
            rw [← h4]; simp

theorem streams_of {E : Env} {k : UInt16} (hm : E.maxStream + 1 = k) (h0 : k ≠ 0) {w : World} (h : Reachable E w) {x : Rec} (hx : x ∈ w.trace)
    {s : Sent} (hs : sent? x.ev = some s) (hg : (∃ b, x.gor = .api (.write b)) ∨ ∃ pd, x.gor = .api (.writePD pd)) : 1 ≤ s.stream ∧ s.stream < k := by
  have key : 1 ≤ s.stream ∧ s.stream ≤ E.maxStream := by
    have := (c40_streams h x hx s hs).2
    rcases hg with ⟨b, hg⟩ | ⟨b, hg⟩ <;> rw [hg] at this <;> exact this
  refine ⟨key.1, ?_⟩
  have h2 := key.2
  rw [UInt16.le_iff_toNat_le] at h2
  rw [UInt16.lt_iff_toNat_lt]
  have h3 : (E.maxStream + 1).toNat = k.toNat := by rw [hm]
  rw [UInt16.toNat_add] at h3
  have h4 : k.toNat ≠ 0 := fun h => h0 (UInt16.toNat.inj h)
  have h5 := E.maxStream.toNat_lt
  have : (1 : UInt16).toNat = 1 := rfl
  omega

/-- C100: `Write` and `WritePD` on a connection from `Dial` use the streams that were negotiated, except stream 0. -/
theorem c100_streams {S : Sctp} {net : String} {cfg : Config} {E : Env} (hE : (dial S net (some cfg)).1 = .running E) {k : UInt16} (hk : S.status = .ok k)
    (h0 : k ≠ 0) {w : World} (h : Reachable E w) {x : Rec} (hx : x ∈ w.trace) {s : Sent} (hs : sent? x.ev = some s)
    (hg : (∃ b, x.gor = .api (.write b)) ∨ ∃ pd, x.gor = .api (.writePD pd)) : 1 ≤ s.stream ∧ s.stream < k := by
  obtain ⟨n, k', hb, -, -, hk', -, -, -, -, hm⟩ := (c100_started S net cfg E).mp hE
  rw [hk] at hk'
  cases hk'
  exact streams_of hm h0 h hx hs hg

/-- C100: `Accept` panics before it starts a connection exactly if there is no configuration or it has no `HeartbeatInfo`. -/
theorem c100_accept_panic (S : Sctp) (cfg : Option Config) : (accept S cfg).1 = .panic ↔ ∀ c, cfg = some c → c.heartbeatInfo = none := by
  cases cfg with
  | none => simp [accept]
  | some cfg =>
    cases hc : cfg.heartbeatInfo with
    | none => simp [accept, acceptOpen, checkInterval, hc]
    | some hb =>
      obtain ⟨cfg', hb', h1, h2, hd⟩ := accept_eq S cfg hb hc
      rw [hd]
      unfold begin
      cases S.accept with
      | error e => simp [hc]
      | ok b => cases b <;> cases S.status <;> simp [hc]

/-- C100: `Accept` starts a connection exactly if SCTP has accepted an SCTP association and told its status, with the same settings as `Dial`. -/
theorem c100_accept_started (S : Sctp) (cfg : Config) (E : Env) : (accept S (some cfg)).1 = .running E ↔
    ∃ k hb, S.accept = .ok true ∧ S.status = .ok k ∧ acceptOpen cfg = .proceed E.cfg ∧ E.cfg.heartbeatInfo = some hb ∧
      E.hb = hb ∧ E.mode = .server ∧ E.maxStream + 1 = k := by
  cases hc : cfg.heartbeatInfo with
  | none => simp [accept, acceptOpen, checkInterval, hc]
  | some hb =>
    obtain ⟨cfg', hb', h1, h2, hd⟩ := accept_eq S cfg hb hc
    rw [hd, h1]
    obtain ⟨mode, ecfg, ehb, ms⟩ := E
    cases hs : S.accept with
    | error e => simp
    | ok b =>
      cases b with
      | false => simp
      | true =>
        unfold begin
        cases hk : S.status with
        | error x => simp
        | ok k =>
          simp only [Begun.running.injEq, Env.mk.injEq, Opening.proceed.injEq]
          constructor
          · rintro ⟨rfl, rfl, rfl, rfl⟩
            exact ⟨k, hb', trivial, rfl, rfl, h2, rfl, rfl, by simp⟩
          · rintro ⟨k', hb'', -, hk', rfl, h3, rfl, rfl, h4⟩
            rw [h2] at h3
            cases h3; cases hk'
            refine ⟨rfl, rfl, rfl, ?_⟩
            rw [← h4]; simp

/-- C100: so do connections from `Accept`. -/
theorem c100_accept_streams {S : Sctp} {cfg : Config} {E : Env} (hE : (accept S (some cfg)).1 = .running E) {k : UInt16} (hk : S.status = .ok k)
    (h0 : k ≠ 0) {w : World} (h : Reachable E w) {x : Rec} (hx : x ∈ w.trace) {s : Sent} (hs : sent? x.ev = some s)
    (hg : (∃ b, x.gor = .api (.write b)) ∨ ∃ pd, x.gor = .api (.writePD pd)) : 1 ≤ s.stream ∧ s.stream < k := by
  obtain ⟨k', hb, -, hk', -, -, -, -, hm⟩ := (c100_accept_started S cfg E).mp hE
  rw [hk] at hk'
  cases hk'
  exact streams_of hm h0 h hx hs hg

/-- C100: `Dial` and `Accept` can return a connection exactly if they start one: the handshake can always succeed. -/
theorem c100_conn (b : Begun) : (∃ w, b.Returns .conn w) ↔ ∃ E, b = .running E := by
  constructor
  · rintro ⟨w, h⟩
    generalize hr : Returned.conn = r at h
    cases h with
    | panic => cases hr
    | failed e => cases hr
    | running h1 h2 h3 => exact ⟨_, rfl⟩
  · rintro ⟨E, rfl⟩
    obtain ⟨w, x, h1, h2, h3⟩ := opened_errors E .conn
    exact ⟨some w, .running h1 h2 h3⟩

/-- SCTP that always works, with four outbound streams; a configuration; the connection `Dial` starts. -/
def quiet : Sctp := ⟨fun _ => none, fun _ => none, .ok true, .ok 4⟩
def plainConfig : Config := { Config.new 1 2 3 4 5 6 with heartbeatInfo := some ⟨true, 0, 5, []⟩ }
def plainEnv : Env := ⟨.client, { plainConfig with heartbeatInfo := some ⟨false, 0, 5, []⟩ }, ⟨false, 0, 5, []⟩, 3⟩

/-- An example for `c100_dial`, `c100_closed` and `c100_started`: `Dial` starts a connection and gives up. -/
example : (dial quiet "m3ua" (some plainConfig)).1 = .running plainEnv ∧
    ∃ w, (dial quiet "m3ua" (some plainConfig)).1.Returns (.error (.var .timeout)) w ∧ AssocClosed (dial quiet "m3ua" (some plainConfig)).2 w := by
  refine ⟨rfl, ?_⟩
  obtain ⟨w, hw⟩ := (c100_dial quiet "m3ua" plainConfig _ rfl (.var .timeout)).mpr
    (.inr ⟨"sctp", by decide, .inr (.inr ⟨rfl, 4, rfl, .inr rfl⟩)⟩)
  exact ⟨w, hw, (c100_closed quiet "m3ua" "sctp" plainConfig (by decide) rfl hw).mpr ⟨4, rfl⟩⟩

/-- An example for `c100_accept` and `c100_accept_closed`: the association is not an SCTP association. -/
example : ∃ w, (accept { quiet with accept := .ok false } (some plainConfig)).1.Returns (.error (.other "failed to assert server connection")) w ∧
    AssocClosed (accept { quiet with accept := .ok false } (some plainConfig)).2 w := by
  obtain ⟨w, hw⟩ := (c100_accept { quiet with accept := .ok false } plainConfig _ rfl (.other "failed to assert server connection")).mpr
    (.inr (.inl ⟨rfl, rfl⟩))
  exact ⟨w, hw, (c100_accept_closed _ _ rfl hw).mpr (.inl rfl)⟩

/-- An example for `c100_accept_started`, `c100_accept_streams` and `c100_conn`: `Accept` starts a connection and can return it. -/
example : (accept quiet (some plainConfig)).1 = .running { plainEnv with mode := .server } ∧
    ∃ w, (accept quiet (some plainConfig)).1.Returns .conn w :=
  ⟨rfl, (c100_conn _).mpr ⟨_, rfl⟩⟩

/-- `Listen` on a network that does not exist. -/
example : (listen quiet "tcp").1.map GoErr.text = some "invalid network: tcp" := by decide

/-- An example for `c100_streams`: `Write` uses stream 3. -/
example : ∃ w, Reachable plainEnv w ∧ (sends (w.of 5)).map (fun s => s.stream) = [3] :=
  reach_of (f := fun w => (sends (w.of 5)).map (fun s => s.stream)) (cs := opening .client ++ [.call (.write [8, 9]), .run 5 (.std 2), .run 5 (.std 0),
    .run 5 (.std 0), .run 5 (.std 28), .run 5 (.std 0)]) (by kernel_rfl)

end M3.Conn
