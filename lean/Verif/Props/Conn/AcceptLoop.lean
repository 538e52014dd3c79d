import Verif.Model.Conn.AcceptLoop
import Verif.Model.Examples
import Verif.Props.Conn.Ended
import Verif.Props.Conn.Setup
import Verif.Props.Conn.State

/- The accept loop of the example server: C115. -/

set_option autoImplicit false

namespace M3.Spec

open Conn

/-- SCTP gives an association and its number of streams. -/
def Associates (S : Sctp) : Prop := S.accept = .ok true ∧ ∃ k, S.status = .ok k

end M3.Spec

namespace M3.Conn

open Spec Examples

/-- The listener has a configuration with heartbeat parameters, as one made by `NewServerConfig` or `NewConfig` with them. -/
def HasBeat (cfg : Option Config) : Prop := ∃ c hb, cfg = some c ∧ c.heartbeatInfo = some hb

namespace AcceptLoop

theorem starts {S : Sctp} {cfg : Option Config} (hc : HasBeat cfg) : (∃ E, (accept S cfg).1 = .running E) ↔ Associates S := by
  obtain ⟨c, hb, rfl, hb'⟩ := hc
  constructor
  · rintro ⟨E, h⟩
    obtain ⟨k, hb, h1, h2, -⟩ := (c100_accept_started S c E).mp h
    exact ⟨h1, k, h2⟩
  · rintro ⟨h1, k, h2⟩
    obtain ⟨cfg', hb'', -, -, h⟩ := accept_eq S c hb hb'
    rw [h, h1]
    simp only [begin, h2]
    exact ⟨_, rfl⟩

/-- A server connection that is up and has been handed over. -/
theorem up (E : Env) : ∃ w x, Reachable E w ∧ x ∈ w.trace ∧ x.ev.op = .opened .conn ∧ w.sh.st = .active ∧ reasons w.trace = [] := by
  obtain ⟨w, hr, hv⟩ := reach_of (E := E) (f := fun w : World => ((w.of 0).map fun x => x.ev.op, w.sh.st, reasons w.trace)) (cs := opening E.mode)
    (v := ([.estSelect, .opened .conn], .active, [])) (by obtain ⟨mode, cfg, hb, ms⟩ := E; cases mode <;> kernel_rfl)
  simp only [Prod.mk.injEq] at hv
  have hm : Op.opened .conn ∈ (w.of 0).map fun x => x.ev.op := by rw [hv.1]; simp
  obtain ⟨x, hx, he⟩ := List.mem_map.mp hm
  exact ⟨w, x, hr, (List.mem_filter.mp hx).1, he, hv.2.1, hv.2.2⟩

/-- `Accept` gives up on a peer from which nothing was received. -/
theorem silence (E : Env) : ∃ w x, Reachable E w ∧ x ∈ w.trace ∧ x.ev.op = .opened .timeout ∧ receives w.trace = [] := by
  obtain ⟨w, hr, hv⟩ := reach_of (E := E) (f := fun w : World => ((w.of 0).map fun x => x.ev.op, receives w.trace)) (cs := [.run 0 .timer] ++ go 0 2)
    (v := ([.estSelect, .sctpClose, .opened .timeout], [])) (by kernel_rfl)
  simp only [Prod.mk.injEq] at hv
  have hm : Op.opened .timeout ∈ (w.of 0).map fun x => x.ev.op := by rw [hv.1]; simp
  obtain ⟨x, hx, he⟩ := List.mem_map.mp hm
  exact ⟨w, x, hr, (List.mem_filter.mp hx).1, he, hv.2⟩

variable {cfg : Nat → Option Config} {S : Nat → Sctp}

theorem associates (hc : ∀ n, HasBeat (cfg n)) {n : Nat} {ws : List World} {r : LoopEnd} (h : AcceptLoop cfg S n ws r) :
    ∀ i < ws.length, Associates (S (n + i)) := by
  induction h with
  | waiting | fatal | panic => nofun
  | @next n w ws r h1 h2 ih =>
    intro i hi
    cases i with
    | zero => exact (starts (hc n)).mp ((c100_conn _).mp ⟨_, h1⟩)
    | succ i =>
      have := ih i (by simpa using hi)
      rwa [show n + 1 + i = n + (i + 1) by omega] at this

theorem ended (hc : ∀ n, HasBeat (cfg n)) {n : Nat} {ws : List World} {e : GoErr} (h : AcceptLoop cfg S n ws (.fatal e)) :
    AcceptFails (S (n + ws.length)) e := by
  generalize hr : LoopEnd.fatal e = r at h
  induction h with
  | waiting => cases hr
  | panic => cases hr
  | @fatal n e' w h1 =>
    cases hr
    obtain ⟨c, hb, h2, h3⟩ := hc n
    rw [h2] at h1
    exact (c100_accept _ c hb h3 e).mp ⟨w, h1⟩
  | @next n w ws r h1 h2 ih =>
    have := ih hr
    rwa [show n + 1 + ws.length = n + (w :: ws).length by simp; omega] at this

theorem build (hc : ∀ n, HasBeat (cfg n)) {r : LoopEnd} : ∀ (k n : Nat), (∀ i < k, Associates (S (n + i))) → AcceptLoop cfg S (n + k) [] r →
    ∃ ws : List World, ws.length = k ∧ AcceptLoop cfg S n ws r ∧ ∀ w ∈ ws, w.sh.st = .active ∧ reasons w.trace = []
  | 0, n, _, h => ⟨[], rfl, h, nofun⟩
  | k + 1, n, ha, h => by
    obtain ⟨E, hE⟩ := (starts (S := S n) (hc n)).mpr (ha 0 (by omega))
    obtain ⟨w, x, h1, h2, h3, h4, h5⟩ := up E
    obtain ⟨ws, g1, g2, g3⟩ := build hc k (n + 1) (fun i hi => by
      have := ha (i + 1) (by omega)
      rwa [show n + (i + 1) = n + 1 + i by omega] at this) (by rwa [show n + (k + 1) = n + 1 + k by omega] at h)
    refine ⟨w :: ws, by rw [List.length_cons, g1], .next ?_ g2, fun w' hw => ?_⟩
    · rw [hE]; exact Begun.Returns.running h1 h2 h3
    · rcases List.mem_cons.mp hw with rfl | hw
      · exact ⟨h4, h5⟩
      · exact g3 w' hw

end AcceptLoop

variable {cfg : Nat → Option Config} {S : Nat → Sctp}

/-- C115: a server that calls `Accept` in a loop and ends when `Accept` fails, as the example server does: it can end with the error `e` after `k` connections
exactly if SCTP gives `k` associations and then `Accept` can fail with `e`; in particular with `ErrTimeout` and with `ErrFailedToEstablish` whenever there is one
more association. -/
theorem c115_ends (hc : ∀ n, HasBeat (cfg n)) (k : Nat) (e : GoErr) :
    (∃ ws, ws.length = k ∧ AcceptLoop cfg S 0 ws (.fatal e)) ↔ (∀ i < k, Associates (S i)) ∧ AcceptFails (S k) e := by
  constructor
  · rintro ⟨ws, rfl, h⟩
    have h1 := AcceptLoop.associates hc h
    have h2 := AcceptLoop.ended hc h
    simp only [Nat.zero_add] at h1 h2
    exact ⟨h1, h2⟩
  · rintro ⟨h1, h2⟩
    obtain ⟨c, hb, h3, h4⟩ := hc k
    obtain ⟨w, hw⟩ := (c100_accept _ c hb h4 e).mpr h2
    rw [← h3] at hw
    obtain ⟨ws, h5, h6, -⟩ := AcceptLoop.build (cfg := cfg) (S := S) hc k 0 (by simpa using h1) (by rw [Nat.zero_add]; exact .fatal hw)
    exact ⟨ws, h5, h6⟩

/-- C115: one peer is enough to end it: after any number of connections, all of them up and without any reason to go down, an association from which no message
is received makes `Accept` return `ErrTimeout`, and the program ends. -/
theorem c115_silent (hc : ∀ n, HasBeat (cfg n)) (k : Nat) (ha : ∀ i ≤ k, Associates (S i)) :
    ∃ ws w, ws.length = k ∧ (∀ w ∈ ws, w.sh.st = .active ∧ reasons w.trace = []) ∧ (accept (S k) (cfg k)).1.Returns (.error (.var .timeout)) (some w) ∧
      receives w.trace = [] ∧ AcceptLoop cfg S 0 ws (.fatal (.var .timeout)) := by
  obtain ⟨E, hE⟩ := (AcceptLoop.starts (S := S k) (hc k)).mpr (ha k (Nat.le_refl _))
  obtain ⟨w, x, h1, h2, h3, h4⟩ := AcceptLoop.silence E
  have hr : (accept (S k) (cfg k)).1.Returns (.error (.var .timeout)) (some w) := by
    rw [hE]; exact Begun.Returns.running h1 h2 h3
  obtain ⟨ws, g1, g2, g3⟩ := AcceptLoop.build (cfg := cfg) (S := S) hc k 0 (fun i hi => by rw [Nat.zero_add]; exact ha i (by omega))
    (r := .fatal (.var .timeout)) (by rw [Nat.zero_add]; exact .fatal hr)
  exact ⟨ws, w, g1, g3, hr, h4, g2⟩

/-- C115: it never ends by a panic in `Accept`; and what it gets from `Accept` are server connections on which ASP Active or ASP Active Ack was received, one
for each association. -/
theorem c115_served (hc : ∀ n, HasBeat (cfg n)) {ws : List World} {r : LoopEnd} (h : AcceptLoop cfg S 0 ws r) :
    r ≠ .panic ∧ ∀ i w, ws[i]? = some w → Associates (S i) ∧ activated w.trace ∧ ∃ E, (accept (S i) (cfg i)).1 = .running E ∧ E.mode = .server ∧ Reachable E w := by
  have key : ∀ {n : Nat} {ws : List World} {r : LoopEnd}, AcceptLoop cfg S n ws r → r ≠ .panic ∧ ∀ i w, ws[i]? = some w →
      activated w.trace ∧ ∃ E, (accept (S (n + i)) (cfg (n + i))).1 = .running E ∧ E.mode = .server ∧ Reachable E w := by
    intro n ws r h
    induction h with
    | waiting => exact ⟨nofun, by simp⟩
    | fatal => exact ⟨nofun, by simp⟩
    | @panic n w h1 =>
      exfalso
      obtain ⟨c, hb, h2, h3⟩ := hc n
      generalize hb' : (accept (S n) (cfg n)).1 = b at h1
      generalize hq : Returned.panic = q at h1
      cases h1 with
      | panic =>
        have := (c100_accept_panic (S n) (cfg n)).mp hb' c h2
        rw [h3] at this; cases this
      | failed => cases hq
      | @running E w x r' _ _ _ => cases r' <;> cases hq
    | @next n w ws r h1 h2 ih =>
      refine ⟨ih.1, fun i w' hw => ?_⟩
      cases i with
      | succ i =>
        have := ih.2 i w' (by simpa using hw)
        rwa [show n + 1 + i = n + (i + 1) by omega] at this
      | zero =>
        cases (Option.some.inj (show some w = some w' from hw))
        obtain ⟨E, hE⟩ := (c100_conn _).mp ⟨_, h1⟩
        rw [Nat.add_zero, hE]
        rw [hE] at h1
        obtain ⟨c, hb, g2, g3⟩ := hc n
        rw [g2] at hE
        obtain ⟨-, -, -, -, -, -, -, hm, -⟩ := (c100_accept_started _ _ _).mp hE
        generalize hq : Returned.conn = q at h1
        cases h1 with
        | @running _ _ x r' a1 a2 a3 =>
          cases r' <;> cases hq
          refine ⟨?_, E, rfl, hm, a1⟩
          obtain ⟨l₁, l₂, hl⟩ := List.append_of_mem a2
          obtain ⟨y, hy, hy'⟩ := c53_opened a1 hl a3
          exact ⟨y, by rw [hl, receives, List.filterMap_append]; exact List.mem_append_left _ hy, hy'⟩
  obtain ⟨h1, h2⟩ := key h
  refine ⟨h1, fun i w hw => ?_⟩
  obtain ⟨h3, E, h4, h5⟩ := h2 i w hw
  rw [Nat.zero_add] at h4
  exact ⟨(AcceptLoop.starts (hc i)).mp ⟨E, h4⟩, h3, E, h4, h5⟩

/-- The example server with a peer that completes the handshake and another that does not. -/
example : (∀ n : Nat, HasBeat ((fun _ => some (serverConfig 0 5000000000)) n)) ∧ (∀ i ≤ 1, Associates ((fun _ => quiet) i)) ∧
    ∃ ws, ws.length = 1 ∧ AcceptLoop (fun _ => some (serverConfig 0 5000000000)) (fun _ => quiet) 0 ws (.fatal (.var .failedToEstablish)) := by
  have h : ∀ n : Nat, HasBeat ((fun _ => some (serverConfig 0 5000000000)) n) := fun _ => ⟨_, ⟨true, 0, 5000000000, []⟩, rfl, rfl⟩
  exact ⟨h, fun _ _ => ⟨rfl, 4, rfl⟩, (c115_ends h 1 _).mpr ⟨fun _ _ => ⟨rfl, 4, rfl⟩, .inr (.inr (.inr ⟨rfl, 4, rfl, .inl rfl⟩))⟩⟩

end M3.Conn
