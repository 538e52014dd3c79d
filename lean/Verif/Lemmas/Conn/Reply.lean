import Verif.Lemmas.Conn.Keep

/- A request that was received is answered, or an error is reported: the counterpart of `Flow` for answers, with lower bounds. -/

set_option autoImplicit false
set_option linter.unusedSimpArgs false

namespace M3.Conn.Reply

open Spec

/-- What a goroutine still has to answer. -/
inductive T where
  | none
  | raw (b : Bytes)

def born : Gor → T
  | .packet b => .raw b
  | _ => .none

def Holder (g : Gor) (s : T) (o : Op) : Prop :=
  s = .none ∨ s = born g ∨ ∃ b, o = .spawn (.packet b)

/-- A message that asks for an answer. -/
def asks (b : Bytes) : Prop :=
  meaning b = some .aspUp ∨ meaning b = some .aspDown ∨ meaning b = some .aspActive ∨ meaning b = some .aspInactive ∨ meaning b = some .heartbeat

def ok (g : Gor) (s : T) : Op → Prop
  | .spawn (.packet b) => s = .raw b
  | .spawn _ => ∀ b, s = .raw b → ¬ asks b
  | .write d _ => ∀ b, s = .raw b → g = .packet b ∧ Flow.Answer b d
  | .sendErr _ => ∀ b, s = .raw b → g = .packet b
  | .read _ => s = .none
  | _ => True

def next (s : T) : (o : Op) → Resp o → T
  | .read _, some b => .raw b
  | .spawn _, _ => .none
  | .write .., _ => .none
  | .sendErr _, _ => .none
  | .ctxDone, true => .none
  | _, _ => s

def D : Disc T where
  start g s := s = born g
  born := born
  ok g s o := Holder g s o ∧ ok g s o
  may _ _ _ _ := True
  next _ := next
  fin s := s = .none ∨ ∃ b, s = .raw b ∧ ¬ asks b

theorem D_ok {g s o} : D.ok g s o = (Holder g s o ∧ ok g s o) := rfl
theorem D_may {g s o r} : D.may g s o r = True := rfl
theorem D_next {g s o r} : D.next g s o r = next s o r := rfl
theorem D_post_none {s} : D.post s none ↔ (s = .none ∨ ∃ b, s = .raw b ∧ ¬ asks b) := Iff.rfl
theorem D_post_some {s g} : D.post s (some g) ↔ s = born g := Iff.rfl

theorem good (E : Env) : D.Good E where
  main := rfl
  init := rfl
  monitor := rfl
  api _ := rfl
  spawn g s g' h := rfl
  body g s hs := by
    obtain rfl := hs
    cases g with
    | monitorLoop =>
      obtain ⟨mode, cfg, hb, ms⟩ := E
      cases mode <;> wp_code [D_ok, D_may, D_next, ok, next, D_post_none, D_post_some, born, Holder]
      all_goals simp
    | packet raw =>
      rw [body, packet_eq]
      cases hp : M3UA.parse raw with
      | ok m =>
        by_cases hv : m.version = 1
        · have he := Flow.meaning_ok hp hv
          cases m <;> simp only [M3UA.kind] at he <;>
            wp_code [D_ok, D_may, D_next, ok, next, D_post_none, D_post_some, born, Holder] <;>
            simp +contextual [he, hv, hp, asks, Flow.Answer, Flow.echo, Flow.octets_wire, M3UA.header, sigInfo_std] <;>
            (intros; first | exact ⟨rfl, rfl⟩ | exact ((M3UA.parse_octets hp).2.1).symm)
        · have he : ∀ k, meaning raw ≠ some k := by
            have := (M3UA.parse_octets hp).1
            simp only [meaning, hp, this, hv, if_false, ne_eq, reduceCtorEq, not_false_eq_true, implies_true]
          cases m <;> wp_code [D_ok, D_may, D_next, ok, next, D_post_none, D_post_some, born, Holder] <;> simp [hv, he, asks]
      | _ =>
        have he : ∀ k, meaning raw ≠ some k := by simp [meaning, hp]
        wp_code [D_post_none, D_post_some, born]; simp [he, asks]
    | api c =>
      cases c <;> wp_code [D_ok, D_may, D_next, ok, next, D_post_none, D_post_some, born, Holder] <;> simp
    | _ => wp_code [D_ok, D_may, D_next, ok, next, D_post_none, D_post_some, born, Holder] <;> simp_all

/-- Numbers given to received datagrams and to those sent. -/
structure Weights where
  raw : Bytes → Nat
  sent : Bytes → Nat

namespace Weights

def tok (W : Weights) : T → Nat
  | .none => 0
  | .raw b => W.raw b

/-- What is sent counts, and requests that were refused. -/
def ev (W : Weights) (x : Rec) : Nat :=
  match x.gor, x.ev.op with
  | .packet _, .write d _ => W.sent d
  | .packet b, .sendErr _ => W.raw b
  | _, _ => 0

/-- Nothing counts less than what it answers. -/
structure Fair (W : Weights) : Prop where
  sent : ∀ b d, Flow.Answer b d → W.raw b ≤ W.sent d
  other : ∀ b, ¬ asks b → W.raw b = 0

end Weights

def I (W : Weights) (sh : Shared) (tr : List Rec) (ss : List T) : Prop :=
  sh.ctxDone = false → tot W.raw (receives tr) ≤ tot W.tok ss + tot W.ev tr

theorem I.step {W : Weights} {sh sh' : Shared} {tr : List Rec} {ss : List T} (h : I W sh tr ss) {i : Nat} {s : T} (hs : ss[i]? = some s) (t' : T)
    (gs : List T) (x : Rec) (hc : sh'.ctxDone = false → sh.ctxDone = false)
    (h3 : sh'.ctxDone = false → tot W.raw (receives [x]) + W.tok s ≤ W.tok t' + tot W.tok gs + W.ev x) : I W sh' (tr ++ [x]) (ss.set i t' ++ gs) := by
  intro h0
  have a := tot_set W.tok t' hs
  have b := h (hc h0)
  have h3 := h3 h0
  rw [tot_append, Flow.receives_append, tot_append, tot_append]
  simp only [tot_cons, tot_nil] at a b h3 ⊢
  omega

theorem weigh {W : Weights} (hW : W.Fair) {i : Nat} {g : Gor} {s : T} {o : Op} {r : Resp o} (hok : ok g s o)
    (hd : (⟨o, r⟩ : Ev) ≠ ⟨.ctxDone, true⟩) :
    tot W.raw (receives [⟨i, g, o, r⟩]) + W.tok s ≤ W.tok (next s o r) + tot W.tok ((spawned o).map born) + W.ev ⟨i, g, o, r⟩ := by
  cases o with
  | read n =>
    obtain rfl : s = .none := hok
    cases r <;> simp [next, Weights.tok, spawned, tot, receives, received?]
  | spawn g' =>
    cases s with
    | none => simp [next, Weights.tok, spawned, tot, receives, received?]
    | raw b =>
      cases g' with
      | packet b' =>
        cases (show T.raw b = .raw b' from hok)
        simp [next, Weights.tok, spawned, tot, receives, received?, born]
      | _ =>
        have := hW.other b (hok b rfl)
        simp [next, Weights.tok, spawned, tot, receives, received?, this]
  | write d st =>
    cases s with
    | none => simp [next, Weights.tok, spawned, tot, receives, received?]
    | raw b =>
      obtain ⟨rfl, ha⟩ := hok b rfl
      have := hW.sent b d ha
      simpa [next, Weights.tok, spawned, tot, receives, received?, Weights.ev] using this
  | sendErr e =>
    cases s with
    | none => simp [next, Weights.tok, spawned, tot, receives, received?]
    | raw b =>
      obtain rfl := hok b rfl
      simp [next, Weights.tok, spawned, tot, receives, received?, Weights.ev]
  | ctxDone =>
    cases r with
    | false => simp [next, Weights.tok, spawned, tot, receives, received?]
    | true => exact (hd rfl).elim
  | _ => simp [next, Weights.tok, spawned, tot, receives, received?]

theorem pres {W : Weights} (hW : W.Fair) : Pres D (I W) where
  env sh sh' tr ss h he := by
    cases he
    · exact h
    · intro h'; cases h'
    · exact h
  call sh tr ss c h _ := by
    intro hc
    have := h hc
    rw [tot_append]
    show _ ≤ _ + tot W.tok [T.none] + _
    simp only [tot_cons, tot_nil, Weights.tok]
    omega
  run sh sh' tr ss i g s o r h hs hok hx := ⟨trivial, h.step hs _ _ _ (Keep.ctx_mono hx) fun hc => weigh hW hok.2 (by
    have := Keep.ctx_mono hx hc
    have key : ∀ r', Exec sh .ctxDone r' sh' → r' = sh.ctxDone := by intro r' h; cases h; rfl
    intro e
    cases e
    rw [← key true hx] at this; cases this)⟩
  sync sh sh' tr ss i j gi gj si sj oi oj ri rj h hij hsi hsj hoi hoj hx := by
    refine ⟨trivial, trivial, ?_⟩
    have hj' : (ss.set i (next si oi ri))[j]? = some sj := by rw [getElem?_set_ne' _ hij]; exact hsj
    have hc : sh'.ctxDone = sh.ctxDone := by cases hx <;> rfl
    have e1 : spawned oi = [] := by cases hx <;> rfl
    have e2 : spawned oj = [] := by cases hx <;> rfl
    have a := h.step hsi (next si oi ri) [] ⟨i, gi, oi, ri⟩ (sh' := sh') (fun h => hc ▸ h) (fun _ => by
      have := weigh (i := i) (r := ri) hW hoi.2 (by cases hx <;> (intro h; cases h))
      rwa [e1] at this)
    rw [List.append_nil] at a
    have b := a.step hj' (next sj oj rj) [] ⟨j, gj, oj, rj⟩ (sh' := sh') id (fun _ => by
      have := weigh (i := j) (r := rj) hW hoj.2 (by cases hx <;> (intro h; cases h))
      rwa [e2] at this)
    simpa [D_next] using b
  crash sh tr ss i g s o h _ _ _ := h

theorem reach {E : Env} {W : Weights} (hW : W.Fair) {w : World} (h : Reachable E w) : ∃ ss, D.Linked w ss ∧ I W w.sh w.trace ss :=
  Disc.reach (good E) (pres hW) (by intro; simp [D, born, tot, Weights.tok, init, receives]) h

theorem bound {E : Env} {W : Weights} (hW : W.Fair) {w : World} (h : Reachable E w) (hc : w.sh.ctxDone = false) (hs : Settled w) :
    tot W.raw (receives w.trace) ≤ tot W.ev w.trace := by
  obtain ⟨ss, hl, hi⟩ := reach hW h
  have : tot W.tok ss = 0 := by
    refine Keep.tot_zero_of fun s hs' => ?_
    obtain ⟨i, hi'⟩ := List.getElem?_of_mem hs'
    obtain ⟨t, ht⟩ := getElem?_some_of_length hl.1.symm hi'
    have hw := hl.2 i t s ht hi'
    cases hp : t.prog with
    | ret r =>
      rw [hp] at hw
      cases r with
      | none =>
        rcases D_post_none.mp hw with rfl | ⟨b, rfl, hb⟩
        · rfl
        · exact hW.other b hb
      | some g =>
        have hn := loops (hp ▸ ((Follows.reach h).2 i t ht).1)
        obtain rfl := D_post_some.mp hw
        cases g <;> first | rfl | cases hn
    | op o k =>
      obtain ⟨h1, h2, h3⟩ := hs t (List.mem_of_getElem? ht) o k hp
      rw [hp] at hw
      obtain ⟨⟨rfl | rfl | ⟨b, rfl⟩, -⟩, -⟩ := hw
      · rfl
      · generalize t.gor = g at *
        cases g <;> first | rfl | exact (h1 _ rfl).elim | exact (h2 _ rfl).elim
      · exact (h3 b rfl).elim
  have := hi hc
  omega

end M3.Conn.Reply
