import Verif.Lemmas.Conn.Hist
import Verif.Lemmas.Conn.Sched
import Verif.Spec.Handling
import Verif.Props.Conn.Reading

/- How handlers end: C72; how `Dial` and `Accept` end: C53. -/

set_option autoImplicit false
set_option linter.unusedSimpArgs false

namespace M3.Conn

open Spec

/-- A goroutine whose code is not a loop and which has ended: what holds at the end of its code. -/
theorem Hist.ended {E : Env} {w : World} (h : Reachable E w) {i : Nat} {t : Thread} (ht : w.threads[i]? = some t)
    {g : Gor} (hg : t.gor = g) (ho : g.once = true) (hd : t.prog = .ret none) {P : List Ev → Op → Prop}
    {Q : List Ev → Option Gor → Prop} (hw : WP (Hist P) g Q [] (body E g)) : Q ((w.of i).map Rec.ev) none := by
  obtain ⟨hp, ho⟩ := Follows.once h ht hg ho
  rw [hd] at hp
  have hm : (w.of i).map Rec.ev = t.hist := by
    rw [ho, List.map_map, show Rec.ev ∘ (fun e => (⟨i, g, e⟩ : Rec)) = id from rfl, List.map_id]
  rw [hm]
  simpa using Hist.path hw (hm ▸ Hist.real_of h i) hp

/-- How the handler of an understood message ends. -/
def Ends (s : List Ev) : Prop := s = [⟨.ctxDone, true⟩] ∨ (s.head?.map Ev.op = some .ctxDone ∧ ∃ x, s.filterMap reported? = [x])

theorem packet_ends {E : Env} {raw : Bytes} {m : M3UA} (hp : M3UA.parse raw = .ok m) (hv : m.version = 1) :
    WP (Hist fun _ _ => True) (.packet raw) (fun s _ => Ends s) [] (body E (.packet raw)) := by
  rw [body, packet_eq]
  simp only [hp]
  cases m <;>
    wp_code [Hist.ok_eq, Hist.may_eq, Hist.next_eq, Facts.may, List.nil_append, List.append_assoc, List.cons_append, hv, Ends] <;>
    simp [reported?, List.filterMap_cons]

/-- C72: the handler of an understood message, once it has ended, has reported exactly one state to the monitor, which then reads
the next datagram (C71), unless it found the context done, in which case it did nothing else. -/
theorem c72_returns {E : Env} {w : World} (h : Reachable E w) {i : Nat} {t : Thread} (ht : w.threads[i]? = some t)
    {raw : Bytes} (hc : t.gor = .packet raw) (hd : t.prog = .ret none) {m : M3UA} (hp : M3UA.parse raw = .ok m)
    (hv : raw.getD 0 0 = 1) :
    (w.of i).map Rec.ev = [⟨.ctxDone, true⟩] ∨ ∃ s, reports (w.of i) = [s] := by
  have hv' : m.version = 1 := by rw [← (M3UA.parse_octets hp).1]; exact hv
  rcases Hist.ended h ht hc rfl hd (packet_ends hp hv') with h1 | ⟨-, s, h1⟩
  · exact .inl h1
  · exact .inr ⟨s, by rw [reports, ← h1, List.filterMap_map]; rfl⟩

/-- C72: the handler of a datagram that is rejected, or whose version is not 1, never reports a state. -/
theorem c72_nothing {E : Env} {w : World} (h : Reachable E w) {i : Nat} {t : Thread} (ht : w.threads[i]? = some t)
    {raw : Bytes} (hc : t.gor = .packet raw) (hu : Unusable raw) : reports (w.of i) = [] := by
  rw [reports, List.filterMap_eq_nil_iff]
  intro x hx
  obtain ⟨l₁, l₂, hl⟩ := List.append_of_mem hx
  have hP := Hist.once h ht hc rfl (P := fun _ o => ∀ s, o ≠ .sendState s) (Q := fun _ _ => True) (by
    rw [body, packet_eq]
    cases hp : M3UA.parse raw with
    | ok m =>
      have hv : m.version ≠ 1 := by rw [← (M3UA.parse_octets hp).1]; exact hu m hp
      wp_code [Hist.ok_eq, Hist.may_eq, Hist.next_eq, hv]
    | _ => wp_code [Hist.ok_eq, Hist.may_eq, Hist.next_eq] <;> simp) hl
  obtain ⟨_, _, o, r⟩ := x
  cases o <;> first | rfl | exact absurd rfl (hP _)

/-- For `c72_returns`: The handler (4) of an ASP Active Ack has ended; the monitor has been told "active". -/
example : ∃ w, Reachable E₀ w ∧ (w.threads[4]?.map fun t => (t.gor, t.prog.result?), reports (w.of 4)) =
    (some (.packet ackMsg, some none), [.active]) ∧ ∃ m, M3UA.parse ackMsg = .ok m :=
  let ⟨w, h, he⟩ := reach_of (E := E₀) (cs := opening .client)
    (f := fun w => (w.threads[4]?.map fun t => (t.gor, t.prog.result?), reports (w.of 4))) (by kernel_rfl)
  ⟨w, h, he, _, rfl⟩

/-- The handler (4) of an ASP Up of version 2 has ended; the monitor has not been told anything. -/
example : ∃ w, Reachable E₀ w ∧ (w.threads[4]?.map fun t => (t.gor, t.prog.result?), reports (w.of 4)) =
    (some (.packet [2, 0, 3, 1, 0, 0, 0, 8], some none), []) :=
  reach_of (cs := boot .client ++ [.deliver [2, 0, 3, 1, 0, 0, 0, 8]] ++ go 2 2 ++ [.loop 2] ++ go 4 1 ++ [.sync 4 2])
    (by kernel_rfl)

/-- Everything `Dial` or `Accept` does after starting the connection, if it returns `r`: without a connection to return it closes
the association. -/
def _root_.M3.Spec.Opened : OpenRes → List Ev → Prop
  | .conn, l => l = [⟨.estSelect, EstEv.ok⟩, ⟨.opened .conn, ()⟩]
  | .failedToEstablish, l => ∃ b : Bool, l = [⟨.estSelect, EstEv.closed⟩, ⟨.sctpClose, b⟩, ⟨.opened .failedToEstablish, ()⟩]
  | .timeout, l => ∃ b : Bool, l = [⟨.estSelect, EstEv.timeout⟩, ⟨.sctpClose, b⟩, ⟨.opened .timeout, ()⟩]

/-- C53: `Dial` / `Accept` returns a connection if and only if the monitor has reported it established. If the time is over, or the
monitor has closed the connection before, it closes the SCTP association and returns the respective error. -/
theorem c53_ends {E : Env} {w : World} (h : Reachable E w) {i : Nat} {t : Thread} (ht : w.threads[i]? = some t)
    (hg : t.gor = .main) : ∃ r rest, Spec.Opened r ((w.of i).map Rec.ev ++ rest) ∧ (t.prog = .ret none → rest = []) := by
  obtain ⟨hp, ho⟩ := Follows.once h ht hg rfl
  have hm : (w.of i).map Rec.ev = t.hist := by
    rw [ho, List.map_map, show Rec.ev ∘ (fun e => (⟨i, .main, e⟩ : Rec)) = id from rfl, List.map_id]
  rw [hm]
  revert hp
  generalize t.hist = l
  generalize t.prog = q
  intro hp
  rcases Path.op_iff.mp hp with ⟨rfl, rfl⟩ | ⟨ev, l, rfl, hp₁⟩
  · exact ⟨.conn, [_, _], rfl, nofun⟩
  clear hp
  cases ev with
  | ok =>
    rcases Path.op_iff.mp hp₁ with ⟨rfl, rfl⟩ | ⟨_, l, rfl, hp₂⟩
    · exact ⟨.conn, [_], rfl, nofun⟩
    · obtain ⟨rfl, -⟩ := Path.ret_iff.mp hp₂
      exact ⟨.conn, [], rfl, fun _ => rfl⟩
  | closed =>
    rcases Path.op_iff.mp hp₁ with ⟨rfl, rfl⟩ | ⟨b, l, rfl, hp₂⟩
    · exact ⟨.failedToEstablish, [_, _], ⟨true, rfl⟩, nofun⟩
    clear hp₁
    rcases Path.op_iff.mp hp₂ with ⟨rfl, rfl⟩ | ⟨_, l, rfl, hp₃⟩
    · exact ⟨.failedToEstablish, [_], ⟨b, rfl⟩, nofun⟩
    · obtain ⟨rfl, -⟩ := Path.ret_iff.mp hp₃
      exact ⟨.failedToEstablish, [], ⟨b, rfl⟩, fun _ => rfl⟩
  | timeout =>
    rcases Path.op_iff.mp hp₁ with ⟨rfl, rfl⟩ | ⟨b, l, rfl, hp₂⟩
    · exact ⟨.timeout, [_, _], ⟨true, rfl⟩, nofun⟩
    clear hp₁
    rcases Path.op_iff.mp hp₂ with ⟨rfl, rfl⟩ | ⟨_, l, rfl, hp₃⟩
    · exact ⟨.timeout, [_], ⟨b, rfl⟩, nofun⟩
    · obtain ⟨rfl, -⟩ := Path.ret_iff.mp hp₃
      exact ⟨.timeout, [], ⟨b, rfl⟩, fun _ => rfl⟩

/-- `Dial` gives up at once. -/
example (E : Env) : ∃ w, Reachable E w ∧ (w.threads[0]?.map fun t => (t.gor, t.prog.result?), (w.of 0).map fun x => x.ev.op) =
    (some (.main, some none), [.estSelect, .sctpClose, .opened .timeout]) :=
  reach_of (cs := [.run 0 .timer] ++ go 0 2) (by kernel_rfl)

end M3.Conn
