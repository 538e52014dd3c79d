import Verif.Lemmas.Conn.Round
import Verif.Lemmas.Conn.Facts
import Verif.Spec.Monitor
import Verif.Props.MessageLayout

/- The rounds of the monitor that start with a state. -/

set_option autoImplicit false
set_option linter.unusedSimpArgs false

namespace M3.Conn

open Spec

theorem aspUp_wire (a : Option Param) : (M3UA.aspUp (Msg.AspUp.new a none)).wire = message 1 3 1 (presentTlvs [tv a]) := by
  rw [M3UA.wire, ← M3UA.encodes_iff.mp (c17_aspUp a none)]; cases a <;> rfl

theorem aspActive_wire (a b : Option Param) : (M3UA.aspActive (Msg.AspActive.new a b none)).wire =
    message 1 4 1 (presentTlvs [tv a, tv b]) := by
  rw [M3UA.wire, ← M3UA.encodes_iff.mp (c17_aspActive a b none)]; cases a <;> cases b <;> rfl

/-- What has to be shown of a round. -/
def MonRound (E : Env) : MonEv → List Ev → Prop → Prop
  | .err _, _, _ => True
  | .ctx, l, final => final ∧ l.filterMap sent? = [] ∧ closes (others l)
  | .state s, l, final => Entered (request E.cfg E.mode s) s l final

theorem filter_others (l : List Ev) (o : Op) (r : Resp o) : others (⟨o, r⟩ :: l) =
    (match o with | .info | .write .. => [] | _ => [o]) ++ others l := by
  cases o <;> rfl

theorem others_nil : others [] = [] := rfl

/-- Closes an obligation about a piece of a round. -/
macro "entered" p:term : tactic => `(tactic| (
  rw [round_cons]
  refine ⟨?_, $p, ?_, ?_⟩
  · simp
  · intro r h
    first | exact (Option.some.inj h).symm | (cases h; done)
  · simp [Asked, request, entering, filter_others, others_nil, sent?, received?, closes, aspUp_wire, aspActive_wire,
      sigInfo_std, List.filterMap_cons]))

/-- The part of a round that follows the outcome of the `select`. -/
def AfterSelect (E : Env) (ev : MonEv) (p : Prog (Option Gor)) : Prop :=
  WP (Hist fun s _ => Round (MonRound E) True s) .monitorLoop
    (fun s r => Round (MonRound E) True s ∧ ∀ g, r = some g → Round (MonRound E) False s ∧ g = .monitorLoop)
    [⟨.monSelect, ev⟩] p

/-- The code after a state is received. -/
def afterState (E : Env) (s : St) : Prog (Option Gor) := do
  match ← handleStateUpdate E s with
  | some .sctpNotAlive => monitorExit
  | _ =>
    match ← act (.read 1500) with
    | none => monitorExit
    | some raw =>
      act (.spawn (.packet raw))
      return some .monitorLoop

macro "entered_code" : tactic => `(tactic| (
  show WP _ _ _ _ _
  unfold afterState
  wp_code [Hist.ok_eq, Hist.may_eq, Hist.next_eq, Facts.may, List.append_assoc, List.cons_append, List.nil_append]
  refine ⟨by entered .down, by entered .down, ?_⟩
  intro r hr
  cases r <;> simp only [St.asp, Bool.false_eq_true, reduceCtorEq] at hr <;>
    ((try simp only [not_true_eq_false, not_false_eq_true, reduceCtorEq, true_implies, false_implies, true_and, and_true, implies_true])
     repeat' (with_reducible first | apply And.intro | intro _)) <;>
    (try subst_vars)))

theorem after_client_down {cfg hb ms} :
    AfterSelect ⟨.client, cfg, hb, ms⟩ (.state .down) (afterState ⟨.client, cfg, hb, ms⟩ .down) := by
  entered_code <;> first
    | (entered .down; done)
    | (entered .inactive; done)
    | (entered .active; done)
    | (rename_i h; exact (Option.some.inj h).symm)

theorem after_client_inactive {cfg hb ms} :
    AfterSelect ⟨.client, cfg, hb, ms⟩ (.state .inactive) (afterState ⟨.client, cfg, hb, ms⟩ .inactive) := by
  entered_code <;> first
    | (entered .down; done)
    | (entered .inactive; done)
    | (entered .active; done)
    | (rename_i h; exact (Option.some.inj h).symm)

theorem after_client_active {cfg hb ms} :
    AfterSelect ⟨.client, cfg, hb, ms⟩ (.state .active) (afterState ⟨.client, cfg, hb, ms⟩ .active) := by
  entered_code <;> first
    | (entered .down; done)
    | (entered .inactive; done)
    | (entered .active; done)
    | (rename_i h; exact (Option.some.inj h).symm)

theorem after_server_down {cfg hb ms} :
    AfterSelect ⟨.server, cfg, hb, ms⟩ (.state .down) (afterState ⟨.server, cfg, hb, ms⟩ .down) := by
  entered_code <;> first
    | (entered .down; done)
    | (entered .inactive; done)
    | (entered .active; done)
    | (rename_i h; exact (Option.some.inj h).symm)

theorem after_server_inactive {cfg hb ms} :
    AfterSelect ⟨.server, cfg, hb, ms⟩ (.state .inactive) (afterState ⟨.server, cfg, hb, ms⟩ .inactive) := by
  entered_code <;> first
    | (entered .down; done)
    | (entered .inactive; done)
    | (entered .active; done)
    | (rename_i h; exact (Option.some.inj h).symm)

theorem after_server_active {cfg hb ms} :
    AfterSelect ⟨.server, cfg, hb, ms⟩ (.state .active) (afterState ⟨.server, cfg, hb, ms⟩ .active) := by
  entered_code <;> first
    | (entered .down; done)
    | (entered .inactive; done)
    | (entered .active; done)
    | (rename_i h; exact (Option.some.inj h).symm)

theorem monRounds (E : Env) : Rounds E (MonRound E) := by
  show WP _ _ _ _ (monitorLoop E)
  unfold monitorLoop
  rw [wp_bind]
  refine ⟨trivial, fun ev hev => ?_⟩
  rw [wp_ret, Hist.next_eq, List.nil_append]
  cases ev with
  | ctx =>
    wp_code [Hist.ok_eq, Hist.may_eq, Hist.next_eq, Facts.may, List.append_assoc, List.cons_append, List.nil_append,
      round_cons, MonRound]
    simp +contextual [others, sent?, closes, List.filter, List.filterMap_cons]
  | err e =>
    wp_code [Hist.ok_eq, Hist.may_eq, Hist.next_eq, Facts.may, List.append_assoc, List.cons_append, List.nil_append,
        round_cons, MonRound]
    simp +contextual
  | state s =>
    obtain ⟨mode, cfg, hb, ms⟩ := E
    cases s with
    | cdi => simp [Hist.may_eq, Facts.may, St.asp] at hev
    | ri => simp [Hist.may_eq, Facts.may, St.asp] at hev
    | down => cases mode <;> first | exact after_client_down | exact after_server_down
    | inactive => cases mode <;> first | exact after_client_inactive | exact after_server_inactive
    | active => cases mode <;> first | exact after_client_active | exact after_server_active

end M3.Conn
