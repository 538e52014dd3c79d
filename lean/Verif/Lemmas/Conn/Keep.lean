import Verif.Lemmas.Conn.Flow
import Verif.Spec.Session

/- What is received is not lost: the counterpart of `Flow`, with lower bounds. -/

set_option autoImplicit false
set_option linter.unusedSimpArgs false

namespace M3.Conn.Keep

open Spec

/-- What a goroutine still has to pass on. -/
inductive T where
  | none
  | raw (b : Bytes)
  | data (m : Msg.Data)

def born : Gor → T
  | .packet b => .raw b
  | .data m => .data m
  | _ => .none

/-- Who holds what. -/
def Holder (g : Gor) (s : T) (o : Op) : Prop :=
  s = .none ∨ s = born g ∨ ∃ b, o = .spawn (.packet b)

/-- No payload can be got from it. -/
def Empty (m : Msg.Data) : Prop := ∀ p pd, m.protocolData = some p → payloadOf p ≠ some pd

def ok (s : T) : Op → Prop
  | .spawn (.packet b) => s = .raw b
  | .spawn (.data m) => ∃ b, s = .raw b ∧ M3UA.parse b = .ok (.data m)
  | .spawn .heartbeat => s = .none
  | .spawn _ => False
  | .sendData pd => ∃ m p, s = .data m ∧ m.protocolData = some p ∧ payloadOf p = some pd
  | .sendErr e => ∀ m, s = .data m → e = .unexpectedMessage (.data m) ∨ Empty m
  | .read _ => s = .none
  | _ => True

def next (s : T) : (o : Op) → Resp o → T
  | .read _, some b => .raw b
  | .spawn _, _ => .none
  | .sendData _, _ => .none
  | .sendErr _, _ => match s with
    | .data _ => .none
    | s => s
  | .ctxDone, true => .none
  | _, _ => s

def D : Disc T where
  start g s := s = born g
  born := born
  ok g s o := Holder g s o ∧ ok s o
  may _ _ _ _ := True
  next _ := next
  fin s := s = .none ∨ ∃ b, s = .raw b ∧ meaning b ≠ some .data

theorem D_ok {g s o} : D.ok g s o = (Holder g s o ∧ ok s o) := rfl
theorem D_may {g s o r} : D.may g s o r = True := rfl
theorem D_next {g s o r} : D.next g s o r = next s o r := rfl
theorem D_post_none {s} : D.post s none ↔ (s = .none ∨ ∃ b, s = .raw b ∧ meaning b ≠ some .data) := Iff.rfl
theorem D_post_some {s g} : D.post s (some g) ↔ s = born g := Iff.rfl

theorem good (E : Env) : D.Good E where
  main := rfl
  init := rfl
  monitor := rfl
  api _ := rfl
  spawn g s g' h := rfl
  body g s hs := by
    obtain rfl := hs
    cases g with
    | monitorLoop =>
      obtain ⟨mode, cfg, hb, ms⟩ := E
      cases mode <;> wp_code [D_ok, D_may, D_next, ok, next, D_post_none, D_post_some, born, Holder]
      all_goals simp
    | packet raw =>
      rw [body, packet_eq]
      cases hp : M3UA.parse raw with
      | ok m =>
        by_cases hv : m.version = 1
        · have he := Flow.meaning_ok hp hv
          cases m <;> simp only [M3UA.kind] at he <;>
            wp_code [D_ok, D_may, D_next, ok, next, D_post_none, D_post_some, born, Holder] <;>
            simp +contextual [he, hv, hp]
        · have he : meaning raw ≠ some .data := by
            have := (M3UA.parse_octets hp).1
            simp only [meaning, hp, this, hv, if_false, ne_eq, reduceCtorEq, not_false_eq_true]
          cases m <;> wp_code [D_ok, D_may, D_next, ok, next, D_post_none, D_post_some, born, Holder] <;> simp [hv, he]
      | _ => 
        have he : meaning raw ≠ some .data := by simp [meaning, hp]
        wp_code [D_post_none, D_post_some, born, he]; simp [he]
    | api c =>
      cases c <;> wp_code [D_ok, D_may, D_next, ok, next, D_post_none, D_post_some, born, Holder] <;> simp
    | data m =>
      wp_code [D_ok, D_may, D_next, ok, next, D_post_none, D_post_some, born, Holder]
      simp
      exact fun p hp => ⟨fun pd h => ⟨p, hp, h⟩, fun h q pd hq => by rw [hp] at hq; cases hq; rw [h]; simp⟩
    | _ => wp_code [D_ok, D_may, D_next, ok, next, D_post_none, D_post_some, born, Holder] <;> simp_all

structure Weights where
  raw : Bytes → Nat
  data : Msg.Data → Nat
  pd : ProtocolDataPayload → Nat

namespace Weights

def tok (W : Weights) : T → Nat
  | .none => 0
  | .raw b => W.raw b
  | .data m => W.data m

/-- DATA messages that were refused. -/
def ev (W : Weights) (x : Rec) : Nat :=
  match x.ev with
  | ⟨.sendErr (.unexpectedMessage (.data m)), _⟩ => W.data m
  | _ => 0

/-- Nothing counts less than what it comes from. -/
structure Fair (W : Weights) : Prop where
  data : ∀ b m, M3UA.parse b = .ok (.data m) → W.raw b ≤ W.data m
  pd : ∀ m p pd, m.protocolData = some p → payloadOf p = some pd → W.data m ≤ W.pd pd
  empty : ∀ m, Empty m → W.data m = 0
  other : ∀ b, meaning b ≠ some .data → W.raw b = 0

end Weights

theorem ctx_mono {sh sh' : Shared} {o : Op} {r : Resp o} (h : Exec sh o r sh') (h' : sh'.ctxDone = false) : sh.ctxDone = false := by
  cases h <;> first | exact h' | (cases h'; done)

theorem queues_append (a b : List Rec) : queues (a ++ b) = queues a ++ queues b := by
  simp [queues]

def I (W : Weights) (sh : Shared) (tr : List Rec) (ss : List T) : Prop :=
  sh.ctxDone = false → tot W.raw (receives tr) ≤ tot W.tok ss + tot W.pd (queues tr) + tot W.ev tr

theorem I.step {W : Weights} {sh sh' : Shared} {tr : List Rec} {ss : List T} (h : I W sh tr ss)
    {i : Nat} {s : T} (hs : ss[i]? = some s) (t' : T) (gs : List T)
    (x : Rec) (hc : sh'.ctxDone = false → sh.ctxDone = false)
    (h3 : sh'.ctxDone = false → tot W.raw (receives [x]) + W.tok s ≤ W.tok t' + tot W.tok gs + tot W.pd (queues [x]) + W.ev x) :
    I W sh' (tr ++ [x]) (ss.set i t' ++ gs) := by
  intro h0
  have a := tot_set W.tok t' hs
  have b := h (hc h0)
  have c := h3 h0
  rw [tot_append, Flow.receives_append, queues_append, tot_append, tot_append, tot_append]
  simp only [tot_cons, tot_nil] at a b c ⊢
  omega

theorem ev_zero (W : Weights) {i : Nat} {g : Gor} {o : Op} {r : Resp o} (h : ∀ e, o ≠ .sendErr e) : W.ev ⟨i, g, o, r⟩ = 0 := by
  cases o <;> first | rfl | exact (h _ rfl).elim

theorem pres {W : Weights} (hW : W.Fair) : Pres D (I W) where
  env sh sh' tr ss h he := by
    cases he
    · exact h
    · intro h'; cases h'
    · exact h
  call sh tr ss c h _ := by
    intro hc
    have := h hc
    rw [tot_append]
    show _ ≤ _ + tot W.tok [T.none] + _ + _
    simp only [tot_cons, tot_nil, Weights.tok]
    omega
  run sh sh' tr ss i g s o r h hs hok hx := by
    obtain ⟨hk, hok⟩ := (show Holder g s o ∧ ok s o from hok)
    refine ⟨trivial, ?_⟩
    show I W sh' (tr ++ [⟨i, g, o, r⟩]) (ss.set i (next s o r) ++ (spawned o).map born)
    refine h.step hs _ _ _ (ctx_mono hx) fun hc => ?_
    have h0 := ctx_mono hx hc
    cases o with
    | read n =>
      have hs0 : s = .none := hok
      subst hs0
      cases r <;> simp [next, Weights.tok, spawned, tot, receives, received?, queues, queued?]
    | sendData pd =>
      obtain ⟨m, p, rfl, h2, h3⟩ := hok
      have h4 := hW.pd m p pd h2 h3
      simp [next, Weights.tok, spawned, tot, receives, received?, queues, queued?]
      omega
    | spawn g' =>
      cases g' with
      | packet b =>
        obtain rfl : s = .raw b := hok
        simp [next, Weights.tok, spawned, tot, receives, received?, queues, queued?, born]
      | data m =>
        obtain ⟨b, rfl, h2⟩ := hok
        have := hW.data b m h2
        simp [next, Weights.tok, spawned, tot, receives, received?, queues, queued?, born]
        omega
      | heartbeat =>
        obtain rfl : s = .none := hok
        simp [next, Weights.tok, spawned, tot, receives, received?, queues, queued?, born]
      | _ => cases hok
    | ctxDone =>
      cases hx
      simp [h0, next, Weights.tok, spawned, tot, receives, received?, queues, queued?, born]
    | sendErr e => cases hx
    | _ => simp [next, Weights.tok, spawned, tot, receives, received?, queues, queued?, born]
  sync sh sh' tr ss i j gi gj si sj oi oj ri rj h hij hsi hsj hoi hoj hx := by
    refine ⟨trivial, trivial, ?_⟩
    show I W sh' (tr ++ [⟨i, gi, oi, ri⟩, ⟨j, gj, oj, rj⟩]) ((ss.set i (next si oi ri)).set j (next sj oj rj))
    have hj' : (ss.set i (next si oi ri))[j]? = some sj := by rw [getElem?_set_ne' _ hij]; exact hsj
    obtain ⟨-, hoi⟩ := (show Holder gi si oi ∧ ok si oi from hoi)
    have hc : sh'.ctxDone = sh.ctxDone := by cases hx <;> rfl
    have a := h.step (sh' := sh') hsi (next si oi ri) [] ⟨i, gi, oi, ri⟩ (fun h => hc ▸ h) (fun _ => by
      cases hx with
      | err =>
        rename_i e
        cases si with
        | data m =>
          rcases hoi m rfl with rfl | h1
          · simp [next, Weights.tok, tot, receives, received?, queues, queued?, Weights.ev]
          · simp [next, Weights.tok, tot, receives, received?, queues, queued?, hW.empty m h1]
        | _ => simp [next, Weights.tok, tot, receives, received?, queues, queued?]
      | _ => simp [next, Weights.tok, tot, receives, received?, queues, queued?])
    rw [List.append_nil] at a
    have b := a.step (sh' := sh') hj' (next sj oj rj) [] ⟨j, gj, oj, rj⟩ id (fun _ => by
      cases hx <;> simp [next, Weights.tok, tot, receives, received?, queues, queued?])
    simpa using b
  crash sh tr ss i g s o h _ _ _ := h

theorem reach {E : Env} {W : Weights} (hW : W.Fair) {w : World} (h : Reachable E w) : ∃ ss, D.Linked w ss ∧ I W w.sh w.trace ss :=
  Disc.reach (good E) (pres hW) (by intro; simp [D, born, tot, Weights.tok, init, receives]) h

theorem tot_zero_of {σ : Type} {f : σ → Nat} {l : List σ} (h : ∀ x ∈ l, f x = 0) : tot f l = 0 := by
  induction l with
  | nil => rfl
  | cons a l ih => rw [tot_cons, ih fun x hx => h x (List.mem_cons_of_mem _ hx), h a List.mem_cons_self]

theorem bound {E : Env} {W : Weights} (hW : W.Fair) {w : World} (h : Reachable E w) (hc : w.sh.ctxDone = false) (hs : Settled w) :
    tot W.raw (receives w.trace) ≤ tot W.pd (queues w.trace) + tot W.ev w.trace := by
  obtain ⟨ss, hl, hi⟩ := reach hW h
  have : tot W.tok ss = 0 := by
    refine tot_zero_of fun s hs' => ?_
    obtain ⟨i, hi'⟩ := List.getElem?_of_mem hs'
    obtain ⟨t, ht⟩ := getElem?_some_of_length hl.1.symm hi'
    have hw := hl.2 i t s ht hi'
    cases hp : t.prog with
    | ret r =>
      rw [hp] at hw
      cases r with
      | none =>
        rcases D_post_none.mp hw with rfl | ⟨b, rfl, hb⟩
        · rfl
        · exact hW.other b hb
      | some g =>
        have hn := loops (hp ▸ ((Follows.reach h).2 i t ht).1)
        obtain rfl := D_post_some.mp hw
        cases g <;> first | rfl | cases hn
    | op o k =>
      obtain ⟨h1, h2, h3⟩ := hs t (List.mem_of_getElem? ht) o k hp
      rw [hp] at hw
      obtain ⟨⟨rfl | rfl | ⟨b, rfl⟩, -⟩, -⟩ := hw
      · rfl
      · generalize t.gor = g at *
        cases g <;> first | rfl | exact (h1 _ rfl).elim | exact (h2 _ rfl).elim
      · exact (h3 b rfl).elim
  have := hi hc
  omega

end M3.Conn.Keep
