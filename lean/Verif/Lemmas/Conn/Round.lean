import Verif.Lemmas.Conn.Hist
import Verif.Lemmas.Conn.Role

/- One round of the monitor: what it does between two `select`s. -/

set_option autoImplicit false

namespace M3.Conn

/-- A round so far: it started with the outcome `ev` of a `select`, and `P` holds of `ev` and what was done since.
The last argument of `P`: the monitor has not gone on to another round. -/
def Round (P : MonEv → List Ev → Prop → Prop) (final : Prop) : List Ev → Prop
  | [] => True
  | ⟨.monSelect, ev⟩ :: l => Op.monSelect ∉ l.map Ev.op ∧ P ev l final
  | _ :: _ => False

theorem round_cons {P : MonEv → List Ev → Prop → Prop} {final : Prop} {ev : MonEv} {l : List Ev} :
    Round P final (⟨.monSelect, ev⟩ :: l) = (Op.monSelect ∉ l.map Ev.op ∧ P ev l final) := rfl

/-- What has to be shown of the code. -/
def Rounds (E : Env) (P : MonEv → List Ev → Prop → Prop) : Prop :=
  WP (Hist fun s _ => Round P True s) .monitorLoop
    (fun s r => Round P True s ∧ ∀ g, r = some g → Round P False s ∧ g = .monitorLoop) [] (body E .monitorLoop)

theorem Rounds.at {E : Env} {P : MonEv → List Ev → Prop → Prop} (hP : Rounds E P) {w : World} (h : Reachable E w) {i : Nat} {g : Gor}
    {ev : MonEv} {l₁ l₂ : List Rec} (hl : w.of i = l₁ ++ ⟨i, g, .monSelect, ev⟩ :: l₂) :
    ∃ now later, l₂ = now ++ later ∧ (∀ y l, later = y :: l → y.ev.op = .monSelect) ∧
      (∀ y ∈ now, y.ev.op ≠ .monSelect) ∧
      ((later = [] ∧ P ev (now.map Rec.ev) True) ∨ P ev (now.map Rec.ev) False) := by
  have hg : g = .monitorLoop :=
    (Role.monSelect h (x := ⟨i, g, .monSelect, ev⟩) ((List.mem_filter.mp (show _ ∈ w.of i by rw [hl]; simp)).1) rfl).2
  subst hg
  obtain ⟨pre, post, h₁, h₂, -, rfl, hR, hC⟩ := Hist.run h hl hP
  have h₁nil : h₁ = [] := by
    cases h₁ with
    | nil => rfl
    | cons a t =>
      have : Op.monSelect ∉ (t ++ (⟨.monSelect, ev⟩ : Ev) :: h₂).map Ev.op := by
        obtain ⟨o, r⟩ := a
        cases o <;> first | exact hR.1 | cases hR
      simp at this
  subst h₁nil
  have hmap : (h₂.map fun ev => (⟨i, .monitorLoop, ev⟩ : Rec)).map Rec.ev = h₂ := by
    rw [List.map_map]; exact List.map_id h₂
  refine ⟨_, post, rfl, ?_, ?_, ?_⟩
  · rintro y l rfl
    rcases hC with hC | ⟨g', ⟨-, rfl⟩, hh⟩
    · cases hC
    · obtain ⟨-, k, hk⟩ := hh y l rfl
      have : body E .monitorLoop = monitorLoop E := rfl
      rw [this] at hk
      unfold monitorLoop at hk
      injection hk with hk _
      exact hk.symm
  · intro y hy
    obtain ⟨ev, hev, rfl⟩ := List.mem_map.mp hy
    intro hm
    exact hR.1 (List.mem_map.mpr ⟨ev, hev, hm⟩)
  · rw [hmap]
    rcases hC with rfl | ⟨g', ⟨hC, rfl⟩, hh⟩
    · exact .inl ⟨rfl, hR.2⟩
    · exact .inr hC.2

end M3.Conn
