import Verif.Lemmas.Conn.Code
import Verif.Lemmas.Conn.Count
import Verif.Spec.Meaning

/- The state of a connection is determined by the datagrams read. -/

set_option autoImplicit false

namespace M3.Conn.Fold

open Spec

/-- What a goroutine knows about the state. -/
inductive S where
  | idle
  /-- about to report the initial state -/
  | start
  /-- handling `raw`; the state was seen to be `seen` -/
  | pend (raw : Bytes) (seen : Option St)
  /-- a state was reported and is not stored yet -/
  | upd (x : St)
  /-- the state is up to date, namely `x` -/
  | applied (x : St)
  /-- a datagram was read -/
  | got (raw : Bytes)
  /-- inside `Close`, after the first channel was closed -/
  | closing
  deriving DecidableEq

/-- The state a goroutine may report. -/
def reports : S → St → Prop
  | .start, x => x = .down
  | .pend raw seen, x => effect raw = some x ∨ (effect raw = none ∧ seen = some x)
  | _, _ => False

def ok (s : S) : Op → Prop
  | .sendState x => reports s x
  | .putSt x => s = .upd x ∨ (s = .closing ∧ x = .down)
  | .read _ => match s with
    | .applied _ => True
    | _ => False
  | .sendEst => s = .applied .active
  | .spawn (.packet raw) => s = .got raw
  | .spawn .start => False
  | .monSelect => s = .idle
  | _ => True

def next (s : S) : (o : Op) → Resp o → S
  | .sendState _, _ => .idle
  | .monSelect, .state x => .upd x
  | .putSt x, _ => if s = .closing then .closing else .applied x
  | .read _, some raw => .got raw
  | .read _, none => .idle
  | .spawn (.packet _), _ => .idle
  | .closeEst, _ => .closing
  | .state, r => match s with
    | .pend raw _ => .pend raw (some r)
    | s => s
  | _, _ => s

def born : Gor → S
  | .start => .start
  | .packet raw => .pend raw none
  | _ => .idle

def D : Disc S where
  start g s := s = born g
  born := born
  ok _ := ok
  may _ _ _ _ := True
  next _ := next

theorem D_ok {g s o} : D.ok g s o = ok s o := rfl
theorem D_may {g s o r} : D.may g s o r = True := rfl
theorem D_next {g s o r} : D.next g s o r = next s o r := rfl
theorem D_post {s r} : D.post s r ↔ ∀ g, r = some g → s = born g := by
  cases r <;> simp [Disc.post, D]

theorem effect_ok {raw : Bytes} {m : M3UA} (h : M3UA.parse raw = .ok m) (hv : m.version = 1) :
    effect raw = m.kind.bind commands := by
  have := (M3UA.parse_octets h).1
  simp only [effect, meaning, h, this, hv, if_true]

theorem good (E : Env) : D.Good E where
  main := rfl
  init := rfl
  monitor := rfl
  api _ := rfl
  spawn g s g' h := rfl
  body g s hs := by
    obtain rfl := hs
    cases g with
    | monitorLoop =>
      obtain ⟨mode, cfg, hb, ms⟩ := E
      cases mode <;> wp_code [D_ok, D_may, D_next, ok, reports, next, D_post, born] <;> simp
    | packet raw =>
      rw [body, packet_eq]
      cases hp : M3UA.parse raw with
      | ok m =>
        by_cases hv : m.version = 1
        · have he := effect_ok hp hv
          cases m <;> simp only [M3UA.kind, Option.bind_some, commands] at he <;> 
            wp_code [D_ok, D_may, D_next, ok, reports, next, D_post, born] <;> simp [he, hv]
        · cases m <;> wp_code [D_ok, D_may, D_next, ok, reports, next, D_post, born] <;> simp [hv]
      | _ => wp_code [D_post] <;> simp
    | api c =>
      cases c <;> wp_code [D_ok, D_may, D_next, ok, reports, next, D_post, born] <;> simp
    | _ => wp_code [D_ok, D_may, D_next, ok, reports, next, D_post, born] <;> simp_all

def one : S → Nat
  | .idle | .closing => 0
  | _ => 1

/-- `F`: the state that the datagrams read so far ask for. -/
def Fact (st F : St) : S → Prop
  | .start => st = .down ∧ F = .down
  | .pend raw seen => F = (effect raw).getD st ∧ ∀ x, seen = some x → x = st
  | .upd x => x = F
  | .applied _ => st = F
  | .got raw => F = (effect raw).getD st
  | _ => True

structure I (sh : Shared) (tr : List Rec) (ss : List S) : Prop where
  le : tot one ss ≤ 1
  cl : ∀ j : Nat, ss[j]? = some .closing → sh.estClosed = true
  fact : sh.estClosed = false → ∀ (j : Nat) (s : S), ss[j]? = some s → Fact sh.st (stateAfter (receives tr)) s
  gen : sh.estClosed = false → sh.st = stateAfter (receives tr) ∨
    ∃ rs raw, receives tr = rs ++ [raw] ∧ sh.st = stateAfter rs

theorem receives_append (a b : List Rec) : receives (a ++ b) = receives a ++ receives b := by
  simp [receives]

theorem stateAfter_append (rs : List Bytes) (raw : Bytes) :
    stateAfter (rs ++ [raw]) = (effect raw).getD (stateAfter rs) := by
  simp [stateAfter]

/-- A step that neither reads nor changes the state. -/
theorem I.plain {sh sh' : Shared} {tr : List Rec} {ss : List S} (h : I sh tr ss) {i : Nat} {s : S} (hs : ss[i]? = some s)
    (s' : S) (gs : List S) (xs : List Rec) (h1 : one s' + tot one gs ≤ one s) (h2 : sh'.st = sh.st)
    (h3 : sh'.estClosed = sh.estClosed) (h4 : receives xs = []) (h5 : s' = .closing → s = .closing)
    (h6 : .closing ∉ gs) (h7 : ∀ F, Fact sh.st F s → Fact sh.st F s' ∧ ∀ g ∈ gs, Fact sh.st F g) :
    I sh' (tr ++ xs) (ss.set i s' ++ gs) := by
  refine ⟨?_, ?_, ?_, ?_⟩
  · have := tot_set one s' hs
    have := h.le
    rw [tot_append]; omega
  · intro j hj
    rw [h3]
    rcases mem_set_cases hs hj with ⟨rfl, h8⟩ | ⟨hne, h8⟩ | h8
    · exact h.cl j (by rw [hs, h5 h8.symm])
    · exact h.cl j h8
    · exact absurd h8 h6
  · intro hc j t hj
    rw [h3] at hc
    rw [h2, receives_append, h4, List.append_nil]
    rcases mem_set_cases hs hj with ⟨rfl, rfl⟩ | ⟨hne, h8⟩ | h8
    · exact (h7 _ (h.fact hc _ _ hs)).1
    · exact h.fact hc j t h8
    · exact (h7 _ (h.fact hc _ _ hs)).2 _ h8
  · intro hc
    rw [h3] at hc
    rw [h2, receives_append, h4, List.append_nil]
    exact h.gen hc

theorem Fact.zero {st F : St} {s : S} (h : one s = 0) : Fact st F s := by
  cases s <;> first | trivial | cases h

theorem pres : Pres D I where
  env sh sh' tr ss h he := by
    cases he <;> exact ⟨h.le, h.cl, h.fact, h.gen⟩
  call sh tr ss c h _ := by
    refine ⟨by have := h.le; rw [tot_append]; simpa [tot, D, born, one] using this, fun j hj => ?_, fun hc j s hj => ?_, h.gen⟩
    · by_cases hj' : j < ss.length
      · rw [List.getElem?_append_left hj'] at hj; exact h.cl j hj
      · rw [List.getElem?_append_right (by omega)] at hj
        have := List.mem_of_getElem? hj
        simp [D, born] at this
    · by_cases hj' : j < ss.length
      · rw [List.getElem?_append_left hj'] at hj; exact h.fact hc j s hj
      · rw [List.getElem?_append_right (by omega)] at hj
        have := List.mem_of_getElem? hj
        simp only [D, born, List.mem_singleton] at this
        subst this; trivial
  run sh sh' tr ss i g s o r h hs hok hx := by
    have hok : ok s o := hok
    refine ⟨trivial, ?_⟩
    show I sh' (tr ++ [⟨i, g, o, r⟩]) (ss.set i (next s o r) ++ (spawned o).map born)
    cases o with
    | read n =>
      obtain ⟨y, hs'⟩ : ∃ y, s = .applied y := by
        cases s <;> first | exact ⟨_, rfl⟩ | cases hok
      subst hs'
      have hst : sh'.st = sh.st := by cases hx <;> rfl
      have hec : sh'.estClosed = sh.estClosed := by cases hx <;> rfl
      cases r with
      | none => exact h.plain hs _ _ _ (by simp [next, one, spawned, tot]) hst hec rfl (by simp [next]) (by simp [spawned]) (fun F _ => ⟨trivial, by simp [spawned]⟩)
      | some raw =>
        have hr : receives (tr ++ [⟨i, g, Op.read n, some raw⟩]) = receives tr ++ [raw] := by
          rw [receives_append]; rfl
        have ht := tot_set one (next (.applied y) (Op.read n) (some raw)) hs
        refine ⟨?_, ?_, ?_, ?_⟩
        · have := h.le; simp only [spawned, List.map_nil, List.append_nil]; simp only [next, one] at ht ⊢; omega
        · intro j hj
          rw [hec]
          rcases mem_set_cases hs hj with ⟨rfl, h8⟩ | ⟨hne, h8⟩ | h8
          · cases h8
          · exact h.cl j h8
          · cases h8
        · intro hc j t hj
          rw [hec] at hc
          rw [hst, hr, stateAfter_append]
          have hf : sh.st = stateAfter (receives tr) := h.fact hc i _ hs
          rcases mem_set_cases hs hj with ⟨rfl, rfl⟩ | ⟨hne, h8⟩ | h8
          · simp [next, Fact, hf]
          · have := tot_ge_two one hne h8 hs
            have := h.le
            exact Fact.zero (by simp only [one] at *; omega)
          · cases h8
        · intro hc
          rw [hec] at hc
          exact .inr ⟨_, _, hr, hst ▸ h.fact hc i _ hs⟩
    | putSt x =>
      cases hx
      rcases hok with rfl | ⟨rfl, -⟩
      · have ht := tot_set one (next (.upd x) (Op.putSt x) ()) hs
        refine ⟨?_, ?_, ?_, ?_⟩
        · have := h.le; simp only [spawned, List.map_nil, List.append_nil]; simp [next, one] at ht ⊢; omega
        · intro j hj
          rcases mem_set_cases hs hj with ⟨rfl, h8⟩ | ⟨hne, h8⟩ | h8
          · simp [next] at h8
          · exact h.cl j h8
          · cases h8
        · intro hc j t hj
          have hf : x = stateAfter (receives tr) := h.fact hc i _ hs
          rw [receives_append, show receives [_] = [] from rfl, List.append_nil]
          rcases mem_set_cases hs hj with ⟨rfl, rfl⟩ | ⟨hne, h8⟩ | h8
          · simpa [next, Fact] using hf
          · have := tot_ge_two one hne h8 hs
            have := h.le
            exact Fact.zero (by simp only [one] at *; omega)
          · cases h8
        · intro hc
          rw [receives_append, show receives [_] = [] from rfl, List.append_nil]
          exact .inl (h.fact hc i _ hs)
      · have hcl := h.cl i hs
        refine ⟨?_, fun _ _ => hcl, fun hc => ?_, fun hc => ?_⟩
        · have := h.le; simpa [spawned, next, set_self hs] using this
        · rw [hcl] at hc; cases hc
        · rw [hcl] at hc; cases hc
    | closeEst =>
      cases hx
      refine ⟨?_, fun _ _ => rfl, nofun, nofun⟩
      have := tot_set one (next s Op.closeEst ()) hs
      have := h.le
      simp only [spawned, List.map_nil, List.append_nil]; simp only [next, one] at *; omega
    | spawn g' =>
      cases hx
      cases g' with
      | packet raw =>
        have hs' : s = .got raw := hok
        subst hs'
        exact h.plain hs _ _ _ (by simp [next, one, spawned, born, tot]) rfl rfl rfl (by simp [next]) (by simp [spawned, born]) fun F hF =>
          ⟨trivial, by simpa [spawned, born, Fact] using hF⟩
      | start => cases hok
      | _ => exact h.plain hs _ _ _ (by simp [next, spawned, born, tot, one]) rfl rfl rfl (by simp [next]) (by simp [spawned, born]) fun F hF =>
          ⟨hF, by simp [spawned, born, Fact]⟩
    | state =>
      cases hx
      refine h.plain hs _ _ _ ?_ rfl rfl rfl ?_ (by simp [spawned]) fun F hF => ⟨?_, by simp [spawned]⟩
      · cases s <;> simp [next, one, spawned, tot]
      · cases s <;> simp [next]
      · cases s <;> simp_all [next, Fact]
    | monSelect =>
      cases hx
      exact h.plain hs _ _ _ (by simp [next, spawned, tot]) rfl rfl rfl (by simp [next]) (by simp [spawned]) fun F hF =>
          ⟨hF, by simp [spawned]⟩
    | sendState x => cases hx
    | _ =>
      have hst : sh'.st = sh.st := by cases hx <;> rfl
      have hec : sh'.estClosed = sh.estClosed := by cases hx <;> rfl
      exact h.plain hs _ _ _ (by simp [next, spawned, tot]) hst hec rfl (by simp [next]) (by simp [spawned]) fun F hF =>
          ⟨hF, by simp [spawned]⟩
  sync sh sh' tr ss i j gi gj si sj oi oj ri rj h hij hsi hsj hoi hoj hx := by
    have hoi : ok si oi := hoi
    have hoj : ok sj oj := hoj
    refine ⟨trivial, trivial, ?_⟩
    show I sh' (tr ++ [⟨i, gi, oi, ri⟩, ⟨j, gj, oj, rj⟩]) ((ss.set i (next si oi ri)).set j (next sj oj rj))
    have plain : next si oi ri = si → next sj oj rj = sj → sh'.st = sh.st → sh'.estClosed = sh.estClosed →
        receives [⟨i, gi, oi, ri⟩, ⟨j, gj, oj, rj⟩] = [] →
        I sh' (tr ++ [⟨i, gi, oi, ri⟩, ⟨j, gj, oj, rj⟩]) ((ss.set i (next si oi ri)).set j (next sj oj rj)) := by
      intro h1 h2 h3 h4 h5
      rw [h1, set_self hsi, h2]
      have := h.plain (sh' := sh') hsj sj [] _ (by simp [tot]) h3 h4 h5 id (by simp) fun F hF => ⟨hF, by simp⟩
      simpa using this
    cases hx with
    | err => exact plain rfl rfl rfl rfl rfl
    | est => exact plain rfl rfl rfl rfl rfl
    | ack => exact plain rfl rfl rfl rfl rfl
    | @state st =>
      have hsj' : sj = .idle := hoj
      subst hsj'
      have hi1 : one si = 1 := by
        cases si <;> first | rfl | cases hoi
      have hj' : (ss.set i (next si (Op.sendState st) ()))[j]? = some .idle := by
        rw [getElem?_set_ne' _ hij]; exact hsj
      have t1 := tot_set one (next si (Op.sendState st) ()) hsi
      have t2 := tot_set one (next .idle Op.monSelect (.state st)) hj'
      have n1 : one (next si (Op.sendState st) ()) = 0 := rfl
      have n2 : one (next .idle Op.monSelect (.state st)) = 1 := rfl
      have n3 : one .idle = 0 := rfl
      have hle := h.le
      have hr : receives (tr ++ [⟨i, gi, Op.sendState st, ()⟩, ⟨j, gj, Op.monSelect, .state st⟩]) = receives tr := by
        rw [receives_append]; exact List.append_nil _
      refine ⟨by omega, ?_, ?_, ?_⟩
      · intro k hk
        rcases mem_set_cases (gs := []) hj' (by simpa using hk) with ⟨rfl, h2⟩ | ⟨hne, h2⟩ | h2
        · cases h2
        · rcases mem_set_cases (gs := []) hsi (by simpa using h2) with ⟨rfl, h3⟩ | ⟨hne', h3⟩ | h3
          · cases h3
          · exact h.cl k h3
          · cases h3
        · cases h2
      · intro hc k t hk
        rw [hr]
        have hfi := h.fact hc i _ hsi
        rcases mem_set_cases (gs := []) hj' (by simpa using hk) with ⟨rfl, rfl⟩ | ⟨hne, h2⟩ | h2
        · show st = _
          cases si with
          | start => have hoi : st = .down := hoi; rw [hoi]; exact hfi.2.symm
          | pend raw seen =>
            rcases hoi with he | ⟨he, rfl⟩
            · have := hfi.1; rw [he] at this; exact this.symm
            · have h1 := hfi.1; rw [he] at h1
              exact (hfi.2 _ rfl).trans h1.symm
          | _ => cases hoi
        · rcases mem_set_cases (gs := []) hsi (by simpa using h2) with ⟨rfl, rfl⟩ | ⟨hne', h3⟩ | h3
          · trivial
          · have h4 := tot_ge_two one hne' h3 hsi
            exact Fact.zero (by omega)
          · cases h3
        · cases h2
      · intro hc
        rw [hr]; exact h.gen hc
  crash sh tr ss i g s o h _ _ _ := ⟨h.le, h.cl, h.fact, h.gen⟩

theorem reach {E : Env} {w : World} (h : Reachable E w) : ∃ ss, D.Linked w ss ∧ I w.sh w.trace ss := by
  refine Disc.reach (good E) pres ⟨by simp [D, born, tot, one], fun j hj => ?_, fun _ j s hj => ?_, fun _ => .inl rfl⟩ h
  · rcases j with _ | _ | _ | j <;> simp [D, born] at hj
  · rcases j with _ | _ | _ | j <;> simp [D, born] at hj <;> subst hj
    · trivial
    · exact ⟨rfl, rfl⟩
    · trivial

end M3.Conn.Fold
