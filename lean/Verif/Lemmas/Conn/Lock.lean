import Verif.Lemmas.Conn.Code
import Verif.Lemmas.Conn.Count
import Verif.Spec.Conn

/- The lock of the state, and the order in which channels are closed under it. -/

set_option autoImplicit false
set_option linter.unusedSimpArgs false

namespace M3.Conn.Lock

open Spec

/-- Where a goroutine is with respect to the lock. -/
inductive Ph where
  /-- not holding it -/
  | out
  /-- holding it -/
  | held
  /-- holding it, the state is known -/
  | saw (s : St)
  /-- holding it, the state was just changed to `AspActive` -/
  | must
  /-- in `Close`, after the first channel, the second, the third was closed -/
  | est | ack | data
  /-- in `Close`, after the state was set -/
  | fin
  deriving DecidableEq

/-- `hot`: the goroutine handles a received datagram or is about to set the state. -/
structure S where
  hot : Bool
  ph : Ph
  deriving DecidableEq

def unlocks (s : S) : Prop :=
  match s.ph with
  | .saw x => s.hot = true ∨ x = .down
  | .fin => True
  | _ => False

variable (E : Env)

def ok (s : S) : Op → Prop
  | .lock => s.ph = .out
  | .getSt => s.ph = .held
  | .putSt x => (s.hot = true ∧ ∃ y, s.ph = .saw y) ∨ (s.ph = .data ∧ x = .down)
  | .closeEst => ∃ x, s.ph = .saw x ∧ x ≠ .down
  | .closeAck => s.ph = .est
  | .closeData => s.ph = .ack
  | .unlock => unlocks s
  | .sendEst => s.hot = true ∧ s.ph = .must
  | .sendAck | .sendData _ | .sendState _ | .spawn (.packet _) | .spawn (.data _) => s.hot = true
  | .spawn .heartbeat => s.hot = false
  | .spawn _ => False
  | .monSelect => s = ⟨false, .out⟩
  | .read _ => s = ⟨false, .out⟩
  | .crash => s.hot = true ∨ E.maxStream = 0
  | _ => True

def next (s : S) : (o : Op) → Resp o → S
  | .lock, _ => ⟨s.hot, .held⟩
  | .getSt, x => ⟨s.hot, .saw x⟩
  | .putSt x, _ => match s.ph with
    | .saw y => ⟨s.hot, if x = .active ∧ y ≠ .active then .must else .saw x⟩
    | _ => ⟨s.hot, .fin⟩
  | .closeEst, _ => ⟨s.hot, .est⟩
  | .closeAck, _ => ⟨s.hot, .ack⟩
  | .closeData, _ => ⟨s.hot, .data⟩
  | .sendEst, _ => ⟨s.hot, .saw .active⟩
  | .unlock, _ => ⟨false, .out⟩
  | .monSelect, .state _ => ⟨true, s.ph⟩
  | .read _, some _ => ⟨true, s.ph⟩
  | .spawn (.packet _), _ => ⟨false, s.ph⟩
  | _, _ => s

def born : Gor → S
  | .packet _ | .data _ | .start => ⟨true, .out⟩
  | _ => ⟨false, .out⟩

/-- Goroutines that handle nothing received. -/
def tame : Gor → Bool
  | .main | .monitor | .heartbeat | .beatLoop | .api _ => true
  | _ => false

def D : Disc S where
  start g s := s = born g
  born := born
  ok g s o := ok E s o ∧ (tame g = true → s.hot = false) ∧ (s.ph = .must → o = .sendEst)
  fin s := s.ph = .out
  may _ _ _ _ := True
  next _ := next

theorem D_ok {E : Env} {g s o} : (D E).ok g s o = (ok E s o ∧ (tame g = true → s.hot = false) ∧ (s.ph = .must → o = .sendEst)) := rfl
theorem D_may {E : Env} {g s o r} : (D E).may g s o r = True := rfl
theorem D_next {E : Env} {g s o r} : (D E).next g s o r = next s o r := rfl
theorem D_post {E : Env} {s r} : (D E).post s r ↔ (r = none → s.ph = .out) ∧ ∀ g, r = some g → s = born g := by
  cases r <;> simp [Disc.post, D]

theorem good : (D E).Good E where
  main := rfl
  init := rfl
  monitor := rfl
  api _ := rfl
  spawn g s g' h := rfl
  body g s hs := by
    obtain rfl := hs
    cases g with
    | monitorLoop =>
      obtain ⟨mode, cfg, hb, ms⟩ := E
      cases mode <;> wp_code [D_ok, D_may, D_next, ok, next, D_post, born, tame, unlocks] <;> simp
      all_goals
        refine fun r => ⟨fun h h' => h h'.symm, fun h => ?_⟩
        subst h
        simp
    | packet raw =>
      rw [body, packet_eq]
      cases hp : M3UA.parse raw with
      | ok m => cases m <;> wp_code [D_ok, D_may, D_next, ok, next, D_post, born, tame] <;> simp
      | _ => wp_code [D_post, born]
    | api c =>
      cases c <;> wp_code [D_ok, D_may, D_next, ok, next, D_post, born, tame, unlocks] <;> simp
    | _ => wp_code [D_ok, D_may, D_next, ok, next, D_post, born, tame] <;> simp_all

def holds (s : S) : Nat := if s.ph = .out then 0 else 1

/-- What is known in each phase. -/
def Known (sh : Shared) : Ph → Prop
  | .saw x => x = sh.st
  | .must => sh.st = .active
  | .est | .ack | .data | .fin => sh.estClosed = true
  | _ => True

structure I (sh : Shared) (ss : List S) : Prop where
  lock : tot holds ss = if sh.locked then 1 else 0
  known : ∀ (j : Nat) (s : S), ss[j]? = some s → Known sh s.ph
  ack : sh.ackClosed = true → sh.estClosed = true
  data : sh.dataClosed = true → sh.estClosed = true

/-- The state of the channels in each phase, if no goroutine is hot. -/
def Flags (sh : Shared) : Ph → Prop
  | .est => sh.estClosed = true ∧ sh.ackClosed = false ∧ sh.dataClosed = false
  | .ack => sh.estClosed = true ∧ sh.ackClosed = true ∧ sh.dataClosed = false
  | .data => sh.estClosed = true ∧ sh.ackClosed = true ∧ sh.dataClosed = true
  | .fin => sh.estClosed = true ∧ sh.ackClosed = true ∧ sh.dataClosed = true ∧ sh.st = .down
  | _ => (sh.estClosed = false ∧ sh.ackClosed = false ∧ sh.dataClosed = false) ∨
      (sh.estClosed = true ∧ sh.ackClosed = true ∧ sh.dataClosed = true ∧ sh.st = .down)

/-- Nothing is going on. -/
structure Calm (sh : Shared) (ss : List S) : Prop where
  cold : ∀ (j : Nat) (s : S), ss[j]? = some s → s.hot = false
  flags : ∀ (j : Nat) (s : S), ss[j]? = some s → s.ph ≠ .out → Flags sh s.ph
  free : sh.locked = false → Flags sh .out
  crashed : sh.crashed = false

theorem holds_le (s : S) : holds s ≤ 1 := by unfold holds; split <;> omega

theorem holds_out {s : S} : holds s = 0 ↔ s.ph = .out := by unfold holds; split <;> simp_all

/-- Only the owner of the lock is inside. -/
theorem I.alone {sh : Shared} {ss : List S} (h : I sh ss) {i j : Nat} {s t : S} (hs : ss[i]? = some s) (ht : ss[j]? = some t)
    (hij : j ≠ i) (h1 : s.ph ≠ .out) : t.ph = .out := by
  have a := tot_ge_two holds hij ht hs
  have b := h.lock
  have c : holds s = 1 := by simp [holds, h1]
  apply holds_out.mp
  split at b <;> omega

theorem I.locked {sh : Shared} {ss : List S} (h : I sh ss) {i : Nat} {s : S} (hs : ss[i]? = some s) (h1 : s.ph ≠ .out) :
    sh.locked = true := by
  have a := tot_ge holds hs
  have b := h.lock
  have c : holds s = 1 := by simp [holds, h1]
  split at b <;> first | assumption | omega

theorem Known.mono {sh sh' : Shared} {p : Ph} (h : Known sh p) (h1 : sh'.st = sh.st) (h2 : sh.estClosed = true → sh'.estClosed = true) :
    Known sh' p := by
  cases p <;> simp_all [Known]

theorem none_holds {gs : List S} (h : ∀ g ∈ gs, g.ph = .out) : tot holds gs = 0 := by
  induction gs with
  | nil => rfl
  | cons g gs ih => rw [tot_cons, ih fun x hx => h x (.tail _ hx), holds_out.mpr (h g (.head _))]

theorem I.step {sh sh' : Shared} {ss : List S} (h : I sh ss) {i : Nat} {s : S} (hs : ss[i]? = some s) (s' : S) (gs : List S)
    (h1 : holds s' + (if sh.locked then 1 else 0) = holds s + if sh'.locked then 1 else 0) (h2 : ∀ g ∈ gs, g.ph = .out)
    (h3 : Known sh' s'.ph) (h4 : (sh'.st = sh.st ∧ (sh.estClosed = true → sh'.estClosed = true)) ∨ s.ph ≠ .out)
    (h5 : sh'.ackClosed = true → sh'.estClosed = true) (h6 : sh'.dataClosed = true → sh'.estClosed = true) :
    I sh' (ss.set i s' ++ gs) := by
  refine ⟨?_, fun j t ht => ?_, h5, h6⟩
  · have a := tot_set holds s' hs
    have b := none_holds h2
    have c := h.lock
    rw [tot_append]; omega
  · rcases mem_set_cases hs ht with ⟨-, rfl⟩ | ⟨hne, h7⟩ | h7
    · exact h3
    · rcases h4 with ⟨a, b⟩ | h4
      · exact (h.known j t h7).mono a b
      · rw [h.alone hs h7 hne h4]; trivial
    · rw [h2 t h7]; trivial

theorem I.plain {sh sh' : Shared} {ss : List S} (h : I sh ss) {i : Nat} {s : S} (hs : ss[i]? = some s) (s' : S) (gs : List S)
    (h1 : s'.ph = s.ph) (h2 : ∀ g ∈ gs, g.ph = .out) (h3 : sh'.locked = sh.locked) (h4 : sh'.st = sh.st)
    (h5 : sh'.estClosed = sh.estClosed) (h6 : sh'.ackClosed = sh.ackClosed) (h7 : sh'.dataClosed = sh.dataClosed) :
    I sh' (ss.set i s' ++ gs) := by
  refine h.step hs s' gs (by simp only [holds, h1, h3]) h2 (h1 ▸ (h.known i s hs).mono h4 (by simp [h5])) (.inl ⟨h4, by simp [h5]⟩)
    ?_ ?_
  · rw [h5, h6]; exact h.ack
  · rw [h5, h7]; exact h.data

theorem born_out (g : Gor) : (born g).ph = .out := by cases g <;> rfl

/-- The effect of a step on the invariant, in a form that does not mention the trace. -/
theorem I.run {sh sh' : Shared} {ss : List S} {i : Nat} {s : S} {o : Op} {r : Resp o} (h : I sh ss) (hs : ss[i]? = some s)
    (hok : ok E s o) (hx : Exec sh o r sh') : I sh' (ss.set i (next s o r) ++ (spawned o).map born) := by
  have hk := h.known i s hs
  have hg : ∀ g ∈ (spawned o).map born, g.ph = .out := by
    intro g hg
    obtain ⟨g', -, rfl⟩ := List.mem_map.mp hg
    exact born_out g'
  have hc : ∀ p, s.ph = p → p ≠ .out → holds s = 1 := fun p hp h' => by simp [holds, hp, h']
  cases hx with
  | lock hl =>
    have hok : s.ph = .out := hok
    exact h.step hs _ _ (by simp [next, holds, hok, hl]) hg trivial (.inl ⟨rfl, id⟩) h.ack h.data
  | unlock =>
    have h0 : s.ph ≠ .out := by
      intro h0; have : unlocks s := hok; simp [unlocks, h0] at this
    have := h.locked hs h0
    exact h.step hs _ _ (by simp [next, holds, h0, this]) hg trivial (.inl ⟨rfl, id⟩) h.ack h.data
  | getSt =>
    have hok : s.ph = .held := hok
    exact h.step hs _ _ (by simp [next, holds, hok]) hg (by simp [next, Known]) (.inl ⟨rfl, id⟩) h.ack h.data
  | @putSt x =>
    rcases hok with ⟨-, y, h1⟩ | ⟨h1, rfl⟩
    · by_cases hm : x = .active ∧ y ≠ .active
      · exact h.step hs _ _ (by simp [next, holds, h1, hm]) hg (by simp [next, Known, h1, hm]) (.inr (by simp [h1])) h.ack h.data
      · exact h.step hs _ _ (by simp only [next, holds, h1, if_neg hm]; simp) hg (by simp only [next, Known, h1, if_neg hm])
          (.inr (by simp [h1])) h.ack h.data
    · rw [h1] at hk
      exact h.step hs _ _ (by simp [next, holds, h1]) hg (by simp only [next, Known, h1]; exact hk) (.inr (by simp [h1])) h.ack h.data
  | closeEst hc =>
    obtain ⟨x, h1, -⟩ := (show ∃ x, s.ph = .saw x ∧ x ≠ .down from hok)
    exact h.step hs _ _ (by simp [next, holds, h1]) hg (by simp [next, Known]) (.inr (by simp [h1])) (fun _ => rfl) (fun _ => rfl)
  | closeAck hc =>
    have h1 : s.ph = .est := hok
    rw [h1] at hk
    exact h.step hs _ _ (by simp [next, holds, h1]) hg (by simpa [next, Known] using hk) (.inr (by simp [h1])) (fun _ => hk) h.data
  | closeData hc =>
    have h1 : s.ph = .ack := hok
    rw [h1] at hk
    exact h.step hs _ _ (by simp [next, holds, h1]) hg (by simpa [next, Known] using hk) (.inr (by simp [h1])) h.ack (fun _ => hk)
  | @read n d q h1 h2 h3 => exact h.plain hs _ _ rfl hg rfl rfl rfl rfl rfl
  | @readPart n d q h1 h2 h3 => exact h.plain hs _ _ rfl hg rfl rfl rfl rfl rfl
  | @spawn g =>
    exact h.plain hs _ _ (by cases g <;> rfl) hg rfl rfl rfl rfl rfl
  | _ => exact h.plain hs _ _ rfl hg rfl rfl rfl rfl rfl

theorem I.sync {sh sh' : Shared} {ss : List S} {i j : Nat} {si sj : S} {oi oj : Op} {ri : Resp oi} {rj : Resp oj} (h : I sh ss)
    (hij : i ≠ j) (hsi : ss[i]? = some si) (hsj : ss[j]? = some sj) (hoi : ok E si oi) (hx : Sync sh oi ri oj rj sh') :
    I sh' ((ss.set i (next si oi ri)).set j (next sj oj rj)) := by
  have hj' : (ss.set i (next si oi ri))[j]? = some sj := by rw [getElem?_set_ne' _ hij]; exact hsj
  have e : ∀ (h1 : (next si oi ri).ph = si.ph) (h2 : (next sj oj rj).ph = sj.ph) (h3 : sh'.locked = sh.locked) (h4 : sh'.st = sh.st)
    (h5 : sh'.estClosed = sh.estClosed) (h6 : sh'.ackClosed = sh.ackClosed) (h7 : sh'.dataClosed = sh.dataClosed),
    I sh' ((ss.set i (next si oi ri)).set j (next sj oj rj)) := by
    intro h1 h2 h3 h4 h5 h6 h7
    have a := h.plain hsi (next si oi ri) [] h1 (by simp) rfl rfl rfl rfl rfl
    rw [List.append_nil] at a
    have b := a.plain (sh' := sh') hj' (next sj oj rj) [] h2 (by simp) h3 h4 h5 h6 h7
    rwa [List.append_nil] at b
  cases hx with
  | est hc =>
    have hm : si.ph = .must := hoi.2
    have hk := h.known i si hsi
    rw [hm] at hk
    have a := h.step (sh' := sh) hsi (next si .sendEst ()) [] (by simp [next, holds, hm]) (by simp) hk.symm (.inl ⟨rfl, id⟩) h.ack h.data
    rw [List.append_nil] at a
    have b := a.plain (sh' := { sh with handed := true }) hj' (next sj .estSelect .ok) [] rfl (by simp) rfl rfl rfl rfl rfl
    rwa [List.append_nil] at b
  | _ => exact e rfl rfl rfl rfl rfl rfl rfl

theorem I.call {sh : Shared} {ss : List S} (h : I sh ss) (c : Api) : I sh (ss ++ [born (.api c)]) := by
  refine ⟨by rw [tot_append]; exact h.lock, fun j s hj => ?_, h.ack, h.data⟩
  by_cases hj' : j < ss.length
  · rw [List.getElem?_append_left hj'] at hj; exact h.known j s hj
  · rw [List.getElem?_append_right (by omega)] at hj
    have := List.mem_of_getElem? hj
    simp only [born, List.mem_singleton] at this
    subst this; trivial

theorem pres : Pres (D E) (fun sh _ ss => I sh ss) where
  env sh sh' tr ss h he := by cases he <;> exact ⟨h.lock, h.known, h.ack, h.data⟩
  call sh tr ss c h _ := h.call c
  run sh sh' tr ss i g s o r h hs hok hx := ⟨trivial, h.run E hs hok.1 hx⟩
  sync sh sh' tr ss i j gi gj si sj oi oj ri rj h hij hsi hsj hoi hoj hx := ⟨trivial, trivial, h.sync E hij hsi hsj hoi.1 hx⟩
  crash sh tr ss i g s o h _ _ _ := ⟨h.lock, h.known, h.ack, h.data⟩

theorem reach {E : Env} {w : World} (h : Reachable E w) : ∃ ss, (D E).Linked w ss ∧ I w.sh ss :=
  Disc.reach (good E) (pres E) ⟨rfl, fun j s hj => by
    rcases j with _ | _ | _ | j <;> simp [D, born] at hj <;> subst hj <;> trivial, nofun, nofun⟩ h

theorem Flags.mono {sh sh' : Shared} {p : Ph} (h : Flags sh p) (h4 : sh'.st = sh.st)
    (h5 : sh'.estClosed = sh.estClosed) (h6 : sh'.ackClosed = sh.ackClosed) (h7 : sh'.dataClosed = sh.dataClosed) : Flags sh' p := by
  cases p <;> simpa only [Flags, h4, h5, h6, h7] using h

/-- A step of a goroutine that is not hot and does not become so. -/
theorem Calm.step {sh sh' : Shared} {ss : List S} (hi : I sh ss) (h : Calm sh ss) {i : Nat} {s : S} (hs : ss[i]? = some s) (s' : S)
    (gs : List S) (h1 : s'.hot = false) (h2 : ∀ g ∈ gs, g = ⟨false, .out⟩)
    (h3 : s'.ph ≠ .out → Flags sh' s'.ph) (h4 : sh'.locked = false → Flags sh' .out) (h5 : sh'.crashed = false)
    (h6 : s.ph ≠ .out ∨ (sh'.st = sh.st ∧ sh'.estClosed = sh.estClosed ∧ sh'.ackClosed = sh.ackClosed ∧ sh'.dataClosed = sh.dataClosed)) :
    Calm sh' (ss.set i s' ++ gs) := by
  refine ⟨fun j t ht => ?_, fun j t ht hp => ?_, h4, h5⟩
  · rcases mem_set_cases hs ht with ⟨-, rfl⟩ | ⟨hne, h7⟩ | h7
    · exact h1
    · exact h.cold j t h7
    · rw [h2 t h7]
  · rcases mem_set_cases hs ht with ⟨-, rfl⟩ | ⟨hne, h7⟩ | h7
    · exact h3 hp
    · rcases h6 with h6 | ⟨a, b, c, d⟩
      · exact absurd (hi.alone hs h7 hne h6) hp
      · exact (h.flags j t h7 hp).mono a b c d
    · rw [h2 t h7] at hp; exact absurd rfl hp

/-- A step that changes nothing of importance. -/
theorem Calm.plain {sh sh' : Shared} {ss : List S} (hi : I sh ss) (h : Calm sh ss) {i : Nat} {s : S} (hs : ss[i]? = some s) (s' : S)
    (gs : List S) (h1 : s' = s) (h2 : ∀ g ∈ gs, g = ⟨false, .out⟩) (h3 : sh'.locked = sh.locked) (h4 : sh'.st = sh.st)
    (h5 : sh'.estClosed = sh.estClosed) (h6 : sh'.ackClosed = sh.ackClosed) (h7 : sh'.dataClosed = sh.dataClosed)
    (h8 : sh'.crashed = sh.crashed) : Calm sh' (ss.set i s' ++ gs) := by
  subst h1
  exact h.step hi hs s' gs (h.cold i s' hs) h2 (fun hp => (h.flags i s' hs hp).mono h4 h5 h6 h7)
    (fun hl => (h.free (h3 ▸ hl)).mono h4 h5 h6 h7) (h8 ▸ h.crashed) (.inr ⟨h4, h5, h6, h7⟩)

theorem Calm.run {sh sh' : Shared} {ss : List S} {i : Nat} {s : S} {o : Op} {r : Resp o} (hi : I sh ss) (h : Calm sh ss)
    (hs : ss[i]? = some s) (hok : ok E s o) (hx : Exec sh o r sh') (hr : received? ⟨o, r⟩ = none) :
    Calm sh' (ss.set i (next s o r) ++ (spawned o).map born) := by
  have hc := h.cold i s hs
  have hf := h.flags i s hs
  have hk := hi.known i s hs
  cases hx with
  | lock hl =>
    have hf := h.free hl
    exact h.step hi hs _ _ hc (by simp [spawned]) (fun _ => hf) nofun h.crashed (.inr ⟨rfl, rfl, rfl, rfl⟩)
  | unlock =>
    have hok : unlocks s := hok
    refine h.step hi hs _ _ rfl (by simp [spawned]) (by simp [next]) (fun _ => ?_) h.crashed (.inr ⟨rfl, rfl, rfl, rfl⟩)
    cases hp : s.ph <;> simp only [unlocks, hp] at hok
    · have := hf (by simp [hp]); rw [hp] at this; exact this
    · have := hf (by simp [hp]); rw [hp] at this; exact .inr this
  | getSt =>
    have h1 : s.ph = .held := hok
    have := hf (by simp [h1])
    rw [h1] at this
    have hl := hi.locked hs (by simp [h1])
    exact h.step hi hs _ _ hc (by simp [spawned]) (fun _ => this) (by simp [hl]) h.crashed (.inr ⟨rfl, rfl, rfl, rfl⟩)
  | @putSt x =>
    rcases hok with ⟨h1, -⟩ | ⟨h1, rfl⟩
    · rw [hc] at h1; cases h1
    · have := hf (by simp [h1])
      rw [h1] at this
      have hl := hi.locked hs (by simp [h1])
      exact h.step hi hs _ _ (by simp [next, h1, hc]) (by simp [spawned]) (fun _ => by
        simp only [next, h1]; exact ⟨this.1, this.2.1, this.2.2, rfl⟩) (by simp [hl]) h.crashed (.inl (by simp [h1]))
  | closeEst hcl =>
    obtain ⟨x, h1, h2⟩ := (show ∃ x, s.ph = .saw x ∧ x ≠ .down from hok)
    have := hf (by simp [h1])
    rw [h1] at this
    have hl := hi.locked hs (by simp [h1])
    refine h.step hi hs _ _ hc (by simp [spawned]) (fun _ => ?_) (by simp [hl]) h.crashed (.inl (by simp [h1]))
    rcases this with ⟨-, h3, h4⟩ | ⟨h3, -⟩
    · exact ⟨rfl, h3, h4⟩
    · rw [hcl] at h3; cases h3
  | closeAck hcl =>
    have h1 : s.ph = .est := hok
    have := hf (by simp [h1])
    rw [h1] at this
    have hl := hi.locked hs (by simp [h1])
    exact h.step hi hs _ _ hc (by simp [spawned]) (fun _ => ⟨this.1, rfl, this.2.2⟩) (by simp [hl]) h.crashed (.inl (by simp [h1]))
  | closeData hcl =>
    have h1 : s.ph = .ack := hok
    have := hf (by simp [h1])
    rw [h1] at this
    have hl := hi.locked hs (by simp [h1])
    exact h.step hi hs _ _ hc (by simp [spawned]) (fun _ => ⟨this.1, this.2.1, rfl⟩) (by simp [hl]) h.crashed (.inl (by simp [h1]))
  | read => cases hr
  | readPart => cases hr
  | @spawn g =>
    cases g with
    | packet => have : s.hot = true := hok; rw [hc] at this; cases this
    | data => have : s.hot = true := hok; rw [hc] at this; cases this
    | heartbeat => exact h.plain hi hs _ _ rfl (by simp [spawned, born]) rfl rfl rfl rfl rfl rfl
    | _ => cases hok
  | _ => exact h.plain hi hs _ _ rfl (by simp [spawned]) rfl rfl rfl rfl rfl rfl

/-- Nothing panics, except `Write` and `WritePD` without streams. -/
theorem Calm.safe {sh : Shared} {ss : List S} {i : Nat} {s : S} {o : Op} (hm : E.maxStream ≠ 0) (hi : I sh ss) (h : Calm sh ss)
    (hs : ss[i]? = some s) (hok : ok E s o) : ¬ Crashes sh o := by
  intro hx
  have hc := h.cold i s hs
  have hf := h.flags i s hs
  cases hx with
  | crash => rcases hok with hok | hok
             · rw [hc] at hok; cases hok
             · exact hm hok
  | sendEst _ => have hok : s.hot = true := hok.1; rw [hc] at hok; cases hok
  | sendAck _ => have hok : s.hot = true := hok; rw [hc] at hok; cases hok
  | sendData _ => have hok : s.hot = true := hok; rw [hc] at hok; cases hok
  | closeEst hcl =>
    obtain ⟨x, h1, h2⟩ := (show ∃ x, s.ph = .saw x ∧ x ≠ .down from hok)
    have := hf (by simp [h1])
    have hk := hi.known i s hs
    rw [h1] at this hk
    rcases this with ⟨h3, -⟩ | ⟨-, -, -, h3⟩
    · rw [h3] at hcl; cases hcl
    · exact h2 (Eq.trans hk h3)
  | closeAck hcl =>
    have h1 : s.ph = .est := hok
    have := hf (by simp [h1])
    rw [h1] at this
    rw [this.2.1] at hcl; cases hcl
  | closeData hcl =>
    have h1 : s.ph = .ack := hok
    have := hf (by simp [h1])
    rw [h1] at this
    rw [this.2.2] at hcl; cases hcl

theorem receives_append (a b : List Rec) : receives (a ++ b) = receives a ++ receives b := by simp [receives]

/-- Calm until something is received after `R`. -/
def J (R : List Bytes) (sh : Shared) (tr : List Rec) (ss : List S) : Prop :=
  I sh ss ∧ ∃ l, receives tr = R ++ l ∧ (l = [] → Calm sh ss)

theorem pres_calm (hm : E.maxStream ≠ 0) (R : List Bytes) : Pres (D E) (J R) where
  env sh sh' tr ss h he := by
    obtain ⟨hi, l, h1, h2⟩ := h
    refine ⟨by cases he <;> exact ⟨hi.lock, hi.known, hi.ack, hi.data⟩, l, h1, fun hl => ?_⟩
    have := h2 hl
    cases he <;> exact ⟨this.cold, this.flags, this.free, this.crashed⟩
  call sh tr ss c h _ := by
    obtain ⟨hi, l, h1, h2⟩ := h
    refine ⟨hi.call c, l, h1, fun hl => ?_⟩
    have hc := h2 hl
    have key : ∀ (j : Nat) s, (ss ++ [born (.api c)])[j]? = some s → ss[j]? = some s ∨ s = ⟨false, .out⟩ := by
      intro j s hj
      by_cases hj' : j < ss.length
      · rw [List.getElem?_append_left hj'] at hj; exact .inl hj
      · rw [List.getElem?_append_right (by omega)] at hj
        have := List.mem_of_getElem? hj
        simp only [born, List.mem_singleton] at this
        exact .inr this
    refine ⟨fun j s hj => ?_, fun j s hj hp => ?_, hc.free, hc.crashed⟩
    · rcases key j s hj with h3 | rfl
      · exact hc.cold j s h3
      · rfl
    · rcases key j s hj with h3 | rfl
      · exact hc.flags j s h3 hp
      · exact absurd rfl hp
  run sh sh' tr ss i g s o r h hs hok hx := by
    obtain ⟨hi, l, h1, h2⟩ := h
    refine ⟨trivial, hi.run E hs hok.1 hx, l ++ (received? ⟨o, r⟩).toList, ?_, fun hl => ?_⟩
    · rw [receives_append, h1, List.append_assoc]
      congr 2
    · have hl := List.append_eq_nil_iff.mp hl
      exact (h2 hl.1).run E hi hs hok.1 hx (by cases h : received? ⟨o, r⟩ <;> simp_all)
  sync sh sh' tr ss i j gi gj si sj oi oj ri rj h hij hsi hsj hoi hoj hx := by
    obtain ⟨hi, l, h1, h2⟩ := h
    refine ⟨trivial, trivial, hi.sync E hij hsi hsj hoi.1 hx, l, ?_, fun hl => ?_⟩
    · rw [receives_append, h1]; cases hx <;> simp [receives, received?]
    · have hc := h2 hl
      have hot := hc.cold i si hsi
      have hoi : ok E si oi := hoi.1
      cases hx with
      | err =>
        have := hc.plain hi (sh' := sh) hsi si [] rfl (by simp) rfl rfl rfl rfl rfl rfl
        rw [List.append_nil, set_self hsi] at this
        have b := this.plain (sh' := sh) hi hsj sj [] rfl (by simp) rfl rfl rfl rfl rfl rfl
        show Calm sh ((ss.set i si).set j sj)
        rw [set_self hsi]
        rwa [List.append_nil] at b
      | est => have hoi : si.hot = true := hoi.1; rw [hot] at hoi; cases hoi
      | _ => have hoi : si.hot = true := hoi; rw [hot] at hoi; cases hoi
  crash sh tr ss i g s o h hs hok hx := by
    obtain ⟨hi, l, h1, h2⟩ := h
    exact ⟨⟨hi.lock, hi.known, hi.ack, hi.data⟩, l, h1, fun hl => absurd hx ((h2 hl).safe E hm hi hs hok.1)⟩

end M3.Conn.Lock
