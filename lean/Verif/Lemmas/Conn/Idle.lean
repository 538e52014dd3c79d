import Verif.Lemmas.Conn.Hist
import Verif.Lemmas.Conn.Role

/- The monitor while it waits for a datagram. -/

set_option autoImplicit false
set_option linter.unusedSimpArgs false

namespace M3.Conn

/-- What the monitor does with a datagram. -/
def afterRead (r : Option Bytes) : Prog (Option Gor) :=
  match r with
  | none => monitorExit
  | some raw => .op (.spawn (.packet raw)) fun _ => .ret (some .monitorLoop)

/-- Code without reads. -/
theorem noRead {α : Type} {p : Prog α} {h : List Ev} {n : Nat} {k : Resp (.read n) → Prog α}
    (hw : WP ⟨fun _ (_ : Unit) => True, fun _ => (), fun _ _ o => ∀ n, o ≠ .read n, fun _ _ _ _ => True, fun _ _ _ _ => (), fun _ => True⟩ .main
      (fun _ _ => True) () p) (hp : Path p h (.op (.read n) k)) : False := by
  generalize hq : Prog.op (.read n) k = q at hp
  induction hp with
  | nil => subst hq; exact (wp_op.mp hw).1 n rfl
  | @cons o k r h q _ ih => exact ih ((wp_op.mp hw).2 r trivial) hq

theorem noRead_bind {α β : Type} {p : Prog α} {f : α → Prog β} {h : List Ev} {n : Nat} {k : Resp (.read n) → Prog β}
    (hw : WP ⟨fun _ (_ : Unit) => True, fun _ => (), fun _ _ o => ∀ n, o ≠ .read n, fun _ _ _ _ => True, fun _ _ _ _ => (), fun _ => True⟩ .main
      (fun _ _ => True) () p) (hp : Path (p >>= f) h (.op (.read n) k)) : ∃ a h', Path (f a) h' (.op (.read n) k) := by
  rcases Path.bind_iff.mp hp with ⟨p', h1, h2⟩ | ⟨a, h₁, h₂, -, -, h2⟩
  · cases p' with
    | ret a => exact ⟨a, [], by rw [h2]; exact .nil _⟩
    | op o k' =>
      have h2 : Prog.op (.read n) k = .op o fun r => (k' r).bind f := h2
      obtain rfl : Op.read n = o := by injection h2
      exact (noRead hw h1).elim
  · exact ⟨a, h₂, h2⟩

theorem noRead_exit : WP ⟨fun _ (_ : Unit) => True, fun _ => (), fun _ _ o => ∀ n, o ≠ .read n, fun _ _ _ _ => True, fun _ _ _ _ => (), fun _ => True⟩
    .main (fun _ _ => True) () monitorExit := by
  wp_code [] <;> simp

theorem monitorLoop_read {E : Env} {h : List Ev} {n : Nat} {k : Resp (.read n) → Prog (Option Gor)}
    (hp : Path (monitorLoop E) h (.op (.read n) k)) : n = 1500 ∧ k = afterRead := by
  have hp : Path (.op .monSelect _) h _ := hp
  rcases Path.op_iff.mp hp with ⟨-, h1⟩ | ⟨ev, h', -, h1⟩
  · injection h1 with h1; cases h1
  cases ev with
  | ctx => exact (noRead noRead_exit h1).elim
  | err e =>
    obtain ⟨a, h₂, h2⟩ := noRead_bind (p := handleErrors E e) (by wp_code [] <;> simp) h1
    cases a with
    | some e => exact (noRead noRead_exit h2).elim
    | none => cases h2
  | state s =>
    obtain ⟨a, h₂, h2⟩ := noRead_bind (p := handleStateUpdate E s) (by
      obtain ⟨mode, cfg, hb, ms⟩ := E; cases mode <;> cases s <;> wp_code [] <;> simp) h1
    have key : ∀ {h₂}, Path (.op (.read 1500) fun r => match r with
          | none => monitorExit
          | some raw => act (.spawn (.packet raw)) >>= fun _ => pure (some .monitorLoop)) h₂ (.op (.read n) k) →
        n = 1500 ∧ k = afterRead := by
      intro h₂ h2
      rcases Path.op_iff.mp h2 with ⟨-, h3⟩ | ⟨r, h', -, h3⟩
      · injection h3 with h3 h4
        cases h3
        refine ⟨rfl, h4.trans ?_⟩
        funext r; cases r <;> rfl
      · cases r with
        | none => exact (noRead noRead_exit h3).elim
        | some raw => 
          exact (noRead (p := act (.spawn (.packet raw)) >>= fun _ => pure (some Gor.monitorLoop)) (by wp_simp [] <;> simp) h3).elim
    cases a with
    | none => exact key h2
    | some e =>
      cases e with
      | sctpNotAlive => exact (noRead noRead_exit h2).elim
      | _ => exact key h2

/-- Who waits for a datagram: the monitor. -/
theorem reading {E : Env} {w : World} (h : Reachable E w) {i : Nat} {g : Gor} {hist : List Ev} {n : Nat}
    {k : Resp (.read n) → Prog (Option Gor)} (ht : w.threads[i]? = some ⟨g, hist, .op (.read n) k⟩) :
    i = 2 ∧ g = .monitorLoop ∧ n = 1500 ∧ k = afterRead := by
  have hr := Role.pending h ht
  have hg : g = .monitorLoop := by simpa [Role.role] using hr.2
  subst hg
  exact ⟨hr.1.2.2.mp rfl, rfl, monitorLoop_read ((Follows.reach h).2 i _ ht).1⟩

theorem Steps.one {E : Env} {w w' : World} (h : Step E w w') : Steps E w w' := .tail (.refl _) h

/-- The monitor of an idle connection takes the next datagram and starts a goroutine for it. -/
theorem arrive {E : Env} {w : World} (h : Reachable E w) {hist : List Ev} {n : Nat} {k : Resp (.read n) → Prog (Option Gor)}
    (ht : w.threads[2]? = some ⟨.monitorLoop, hist, .op (.read n) k⟩) (hc : w.sh.crashed = false) (hs : w.sh.sctpClosed = false)
    (hq : w.sh.inbox = []) (raw : Bytes) (hl : raw.length ≤ 1500) :
    ∃ w', Steps E w w' ∧ w'.sh = w.sh ∧ w'.threads[w.threads.length]? = some (Thread.fresh E (.packet raw)) ∧
      w'.threads.length = w.threads.length + 1 ∧
      w'.trace = w.trace ++ [⟨2, .monitorLoop, .read n, some raw⟩, ⟨2, .monitorLoop, .spawn (.packet raw), ()⟩] := by
  obtain ⟨-, -, rfl, rfl⟩ := reading h ht
  have h2 : 2 < w.threads.length := (List.getElem?_eq_some_iff.mp ht).1
  have s1 : Step E w { w with sh := { w.sh with inbox := [raw] } } := by
    have := Step.env (E := E) hc (.deliver raw)
    rwa [hq] at this
  have s2 := Step.run (E := E) (w := { w with sh := { w.sh with inbox := [raw] } }) 2 .monitorLoop hist (.read 1500) afterRead
    (some raw) hc ht (.read hs rfl hl)
  have s3 := Step.run (E := E) (w := ⟨{ w.sh with inbox := [] }, w.threads.set 2 ⟨.monitorLoop, hist ++ [⟨.read 1500, some raw⟩],
      afterRead (some raw)⟩, w.trace ++ [⟨2, .monitorLoop, .read 1500, some raw⟩]⟩) 2 .monitorLoop
      (hist ++ [⟨.read 1500, some raw⟩]) (.spawn (.packet raw)) (fun _ => .ret (some .monitorLoop)) () hc
      (by rw [List.getElem?_set_self h2]; rfl) .spawn
  refine ⟨_, .tail (.tail (.tail (.refl _) s1) (by simpa [spawned] using s2)) s3, ?_, ?_, ?_, ?_⟩
  · simp only [← hq]
  · simp [spawned]
  · simp [spawned]
  · simp

/-- A goroutine completes an operation. -/
theorem Step.go {E : Env} {w : World} {sh' : Shared} {i : Nat} {g : Gor} {h : List Ev} {o : Op} {k : Resp o → Prog (Option Gor)} {r : Resp o}
    (hc : w.sh.crashed = false) (ht : w.threads[i]? = some ⟨g, h, .op o k⟩) (hx : Exec w.sh o r sh') :
    ∃ w', Step E w w' ∧ w'.sh = sh' ∧ w'.threads[i]? = some ⟨g, h ++ [⟨o, r⟩], k r⟩ ∧ w'.trace = w.trace ++ [⟨i, g, o, r⟩] ∧
      ∀ g', o = .spawn g' → w'.threads[w.threads.length]? = some (Thread.fresh E g') := by
  have hi : i < w.threads.length := (List.getElem?_eq_some_iff.mp ht).1
  refine ⟨_, .run i g h o k r hc ht hx, rfl, ?_, rfl, ?_⟩
  · rw [List.getElem?_append_left (by simpa using hi), List.getElem?_set_self hi]
  · rintro g' rfl
    simp [spawned]

end M3.Conn
