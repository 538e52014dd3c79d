import Verif.Lemmas.Conn.Code
import Verif.Lemmas.Conn.Count
import Verif.Spec.Conn

/- The permission to read the next datagram is passed around: from the goroutine `start` to `monitor`, from
`monitor` to the goroutine handling the datagram it read, and back. -/

set_option autoImplicit false

namespace M3.Conn.Token

open Spec (Turn turns)

/-- Datagrams whose handling gives the permission back. -/
def returns (E : Env) (raw : Bytes) : Bool :=
  match M3UA.parse raw with
  | .ok (.heartbeatAck m) => m.version == 1 && E.hb.enabled
  | .ok m => m.version == 1
  | _ => false

theorem run_append (p : Turn) (a b : List Rec) : turns p (a ++ b) = (turns p a).bind fun q => turns q b := by
  induction a generalizing p with
  | nil => rfl
  | cons x a ih =>
    obtain ⟨i, g, o, r⟩ := x
    cases o
    case sendState s => simp only [List.cons_append, turns]; split <;> (try split) <;> simp [ih]
    case read n => cases r <;> simp only [List.cons_append, turns] <;> split <;> simp [ih]
    all_goals simp [turns, ih]

variable (E : Env)

def ok (g : Gor) (s : Option Turn) : Op → Prop
  | .sendState _ => (s = some .start ∧ g = .start) ∨ ∃ raw, s = some (.busy raw) ∧ g = .packet raw
  | .read _ => s = some .ready
  | .spawn (.packet raw) => s = if returns E raw then some (.busy raw) else none
  | .spawn .start => False
  | .spawn .beatLoop => False
  | .monSelect => s = none
  | .ackSelect => E.hb.enabled = true
  | _ => True

def may : (o : Op) → Resp o → Prop
  | .sendAck, _ => E.hb.enabled = true
  | _, _ => True

def next (s : Option Turn) : (o : Op) → Resp o → Option Turn
  | .sendState _, _ => none
  | .monSelect, .state _ => some .ready
  | .read _, some raw => if returns E raw then some (.busy raw) else none
  | .spawn (.packet _), _ => none
  | _, _ => s

def born : Gor → Option Turn
  | .start => some .start
  | .packet raw => if returns E raw then some (.busy raw) else none
  | _ => none

def D : Disc (Option Turn) where
  start g s := s = born E g ∧ (g = .beatLoop → E.hb.enabled = true)
  born := born E
  ok := ok E
  may _ _ o r := may E o r
  next _ s o r := next E s o r

theorem D_ok {E : Env} {g s o} : (D E).ok g s o = ok E g s o := rfl
theorem D_may {E : Env} {g s o r} : (D E).may g s o r = may E o r := rfl
theorem D_next {E : Env} {g s o r} : (D E).next g s o r = next E s o r := rfl
theorem D_post {E : Env} {s r} : (D E).post s r ↔
    ∀ g, r = some g → s = born E g ∧ (g = .beatLoop → E.hb.enabled = true) := by
  cases r <;> simp [Disc.post, D]

theorem good : (D E).Good E where
  main := ⟨rfl, nofun⟩
  init := ⟨rfl, nofun⟩
  monitor := ⟨rfl, nofun⟩
  api _ := ⟨rfl, nofun⟩
  spawn g s g' h := by
    refine ⟨rfl, ?_⟩
    rintro rfl
    exact absurd h (by simp [D, ok])
  body g s hs := by
    obtain ⟨rfl, hb⟩ := hs
    cases g with
    | monitorLoop =>
      obtain ⟨mode, cfg, hb, ms⟩ := E
      cases mode <;> wp_code [D_ok, D_may, D_next, ok, may, next, D_post, born] <;> simp
    | packet raw =>
      rw [body, packet_eq]
      cases hp : M3UA.parse raw with
      | ok m =>
        cases m <;> wp_code [D_ok, D_may, D_next, ok, may, next, D_post, born] <;> 
          simp +contextual [returns, hp, M3UA.version]
      | _ => wp_code [D_post]
    | api c =>
      cases c <;> wp_code [D_ok, D_may, D_next, ok, may, next, D_post, born] <;> simp
    | _ => wp_code [D_ok, D_may, D_next, ok, may, next, D_post, born] <;> simp_all

def one (s : Option Turn) : Nat := if s.isSome then 1 else 0

def isRead (x : Rec) : Bool := match x.ev.op with
  | .read _ => true
  | _ => false

/-- A datagram was read that does not give the permission back. -/
def lostRead (x : Rec) : Bool := match x.ev with
  | ⟨.read _, some raw⟩ => !returns E raw
  | _ => false

structure I (sh : Shared) (tr : List Rec) (ss : List (Option Turn)) : Prop where
  le : tot one ss ≤ 1
  run : ∃ p, turns .start tr = some p ∧ ∀ (i : Nat) (q : Turn), ss[i]? = some (some q) → q = p
  lost : (∃ x ∈ tr, lostRead E x = true) → tot one ss = 0
  silent : ∀ l₁ x l₂, tr = l₁ ++ x :: l₂ → lostRead E x = true → ∀ y ∈ l₂, isRead y = false

theorem silent_append {tr : List Rec} {e : Rec}
    (h : ∀ l₁ x l₂, tr = l₁ ++ x :: l₂ → lostRead E x = true → ∀ y ∈ l₂, isRead y = false)
    (he : isRead e = true → ∀ x ∈ tr, lostRead E x = false) :
    ∀ l₁ x l₂, tr ++ [e] = l₁ ++ x :: l₂ → lostRead E x = true → ∀ y ∈ l₂, isRead y = false := by
  intro l₁ x l₂ heq hx y hy
  rcases List.eq_nil_or_concat l₂ with rfl | ⟨l, z, rfl⟩
  · cases hy
  · have h1 : tr ++ [e] = (l₁ ++ x :: l) ++ [z] := by simpa using heq
    obtain ⟨h2, h3⟩ := List.append_inj' h1 rfl
    simp only [List.cons.injEq, and_true] at h3
    subst h3
    simp only [List.concat_eq_append, List.mem_append, List.mem_singleton] at hy
    rcases hy with hy | rfl
    · exact h l₁ x l h2 hx y hy
    · cases hr : isRead y with
      | false => rfl
      | true => rw [he hr x (by rw [h2]; simp)] at hx; cases hx

/-- Events that do not concern the permission. -/
def neutral (x : Rec) : Bool := match x.ev.op with
  | .read _ | .sendState _ => false
  | _ => true

theorem run_neutral {p : Turn} {x : Rec} (h : neutral x = true) : turns p [x] = some p := by
  obtain ⟨i, g, o, r⟩ := x
  cases o <;> first | rfl | cases h

theorem lost_neutral {x : Rec} (h : neutral x = true) : lostRead E x = false ∧ isRead x = false := by
  obtain ⟨i, g, o, r⟩ := x
  cases o <;> first | exact ⟨rfl, rfl⟩ | cases h

variable {E}

theorem I.append {sh sh' : Shared} {tr : List Rec} {ss ss' : List (Option Turn)} (h : I E sh tr ss) (x : Rec)
    (hx : neutral x = true) (ht : tot one ss' = tot one ss)
    (hq : ∀ (i : Nat) (q : Turn), ss'[i]? = some (some q) → ∃ j : Nat, ss[j]? = some (some q)) : I E sh' (tr ++ [x]) ss' := by
  refine ⟨ht ▸ h.le, ?_, ?_, ?_⟩
  · obtain ⟨p, h1, h2⟩ := h.run
    refine ⟨p, by rw [run_append, h1]; exact run_neutral hx, fun i q hi => ?_⟩
    obtain ⟨j, hj⟩ := hq i q hi
    exact h2 j q hj
  · rintro ⟨y, hy, hl⟩
    rw [ht]
    apply h.lost
    rcases List.mem_append.mp hy with hy | hy
    · exact ⟨y, hy, hl⟩
    · simp only [List.mem_singleton] at hy; subst hy
      rw [(lost_neutral E hx).1] at hl; cases hl
  · exact silent_append E h.silent fun hr => by rw [(lost_neutral E hx).2] at hr; cases hr

theorem I.sh {sh sh' : Shared} {tr : List Rec} {ss : List (Option Turn)} (h : I E sh tr ss) : I E sh' tr ss :=
  ⟨h.le, h.run, h.lost, h.silent⟩

theorem append_none {ss gs : List (Option Turn)} (hg : ∀ t ∈ gs, t = none) :
    tot one (ss ++ gs) = tot one ss ∧
    ∀ (i : Nat) (q : Turn), (ss ++ gs)[i]? = some (some q) → ∃ j : Nat, ss[j]? = some (some q) := by
  constructor
  · rw [tot_append]
    have : tot one gs = 0 := by
      induction gs with
      | nil => rfl
      | cons a l ih =>
        have h1 := hg a (by simp)
        subst h1
        rw [tot_cons, ih fun t ht => hg t (by simp [ht])]; rfl
    omega
  · intro i q hq
    by_cases hi : i < ss.length
    · rw [List.getElem?_append_left hi] at hq; exact ⟨i, hq⟩
    · rw [List.getElem?_append_right (by omega)] at hq
      cases hg _ (List.mem_of_getElem? hq)

theorem pres : Pres (D E) (I E) where
  env sh sh' tr ss h he := h.sh
  call sh tr ss c h _ := by
    obtain ⟨h1, h2⟩ := append_none (ss := ss) (gs := [none]) (by simp)
    refine ⟨h1 ▸ h.le, ?_, fun hl => h1 ▸ h.lost hl, h.silent⟩
    obtain ⟨p, h3, h4⟩ := h.run
    exact ⟨p, h3, fun i q hi => (h2 i q hi).elim fun j hj => h4 j q hj⟩
  run sh sh' tr ss i g s o r h hs hok hx := by
    have hok : ok E g s o := hok
    show may E o r ∧ I E sh' (tr ++ [⟨i, g, o, r⟩]) (ss.set i (next E s o r) ++ (spawned o).map (born E))
    have plain : (∀ t ∈ (spawned o).map (born E), t = none) → next E s o r = s → may E o r →
        neutral ⟨i, g, o, r⟩ = true → may E o r ∧
        I E sh' (tr ++ [⟨i, g, o, r⟩]) (ss.set i (next E s o r) ++ (spawned o).map (born E)) := by
      intro h1 h2 h3 h4
      rw [h2, set_self hs]
      obtain ⟨h5, h6⟩ := append_none (ss := ss) h1
      exact ⟨h3, h.append _ h4 h5 h6⟩
    cases o with
    | read n =>
      have hs' : s = some .ready := hok
      subst hs'
      have h1 : 1 ≤ tot one ss := tot_ge one hs
      have nl : ∀ x ∈ tr, lostRead E x = false := by
        intro x hxm
        cases hl : lostRead E x with
        | false => rfl
        | true => have := h.lost ⟨x, hxm, hl⟩; omega
      obtain ⟨p, hp, hq⟩ := h.run
      have := hq i _ hs; subst this
      refine ⟨trivial, ?_⟩
      simp only [spawned, List.map_nil, List.append_nil]
      cases r with
      | none =>
        simp only [next, set_self hs]
        refine ⟨h.le, ⟨.ready, by rw [run_append, hp]; rfl, hq⟩, ?_, silent_append E h.silent fun _ => nl⟩
        rintro ⟨y, hy, hl⟩
        rcases List.mem_append.mp hy with hy | hy
        · rw [nl y hy] at hl; cases hl
        · simp only [List.mem_singleton] at hy; subst hy; cases hl
      | some raw =>
        have ht := tot_set one (next E (some Turn.ready) (Op.read n) (some raw)) hs
        have hle := h.le
        have hn : one (next E (some Turn.ready) (Op.read n) (some raw)) = if returns E raw then 1 else 0 := by
          simp only [next]; split <;> rfl
        have h1' : one (some Turn.ready) = 1 := rfl
        refine ⟨?_, ⟨.busy raw, by rw [run_append, hp]; rfl, ?_⟩, ?_, silent_append E h.silent fun _ => nl⟩
        · split at hn <;> omega
        · intro j q hj
          rcases mem_set_cases (gs := []) hs (by simpa using hj) with ⟨rfl, h2⟩ | ⟨hne, h2⟩ | h2
          · simp only [next] at h2
            split at h2
            · cases h2; rfl
            · cases h2
          · have h3 := tot_ge_two one hne h2 hs
            have h4 : one (some q) = 1 := rfl
            omega
          · cases h2
        · rintro ⟨y, hy, hl⟩
          rcases List.mem_append.mp hy with hy | hy
          · rw [nl y hy] at hl; cases hl
          · simp only [List.mem_singleton] at hy; subst hy
            simp only [lostRead, Bool.not_eq_true'] at hl
            simp only [hl, Bool.false_eq_true, if_false] at hn
            omega
    | spawn g' =>
      cases hx
      cases g' with
      | packet raw =>
        have hs' : s = born E (.packet raw) := hok
        refine ⟨trivial, h.append _ rfl ?_ ?_⟩
        · have := tot_set one none hs
          simp only [next, spawned, List.map_cons, List.map_nil, tot_append, tot_cons, tot_nil, ← hs']
          have h0 : one none = 0 := rfl
          omega
        · intro j q hj
          rcases mem_set_cases hs hj with ⟨rfl, h2⟩ | ⟨hne, h2⟩ | h2
          · cases h2
          · exact ⟨j, h2⟩
          · simp only [spawned, List.map_cons, List.map_nil, List.mem_singleton, ← hs'] at h2
            exact ⟨i, h2 ▸ hs⟩
      | start => cases hok
      | beatLoop => cases hok
      | _ => exact plain (by simp [spawned, born]) rfl trivial rfl
    | monSelect => cases hx; exact plain (by simp [spawned]) rfl trivial rfl
    | sendState => cases hx
    | sendAck => cases hx
    | _ => exact plain (by simp [spawned]) rfl trivial rfl
  sync sh sh' tr ss i j gi gj si sj oi oj ri rj h hij hsi hsj hoi hoj hx := by
    have hoi : ok E gi si oi := hoi
    have hoj : ok E gj sj oj := hoj
    show may E oi ri ∧ may E oj rj ∧
      I E sh' (tr ++ [⟨i, gi, oi, ri⟩, ⟨j, gj, oj, rj⟩]) ((ss.set i (next E si oi ri)).set j (next E sj oj rj))
    have plain : next E si oi ri = si → next E sj oj rj = sj → may E oi ri → may E oj rj →
        neutral ⟨i, gi, oi, ri⟩ = true → neutral ⟨j, gj, oj, rj⟩ = true → may E oi ri ∧ may E oj rj ∧
        I E sh' (tr ++ [⟨i, gi, oi, ri⟩, ⟨j, gj, oj, rj⟩]) ((ss.set i (next E si oi ri)).set j (next E sj oj rj)) := by
      intro h1 h2 h3 h4 h5 h6
      rw [h1, set_self hsi, h2, set_self hsj]
      have := (h.append (sh' := sh') _ h5 rfl fun i q h => ⟨i, h⟩).append (sh' := sh') _ h6 rfl fun i q h => ⟨i, h⟩
      simp only [List.append_assoc, List.cons_append, List.nil_append] at this
      exact ⟨h3, h4, this⟩
    cases hx with
    | err => exact plain rfl rfl trivial trivial rfl rfl
    | est => exact plain rfl rfl trivial trivial rfl rfl
    | ack => exact plain rfl rfl hoj trivial rfl rfl
    | @state st =>
      have hsj' : sj = none := hoj
      subst hsj'
      refine ⟨trivial, trivial, ?_⟩
      obtain ⟨p, hp, hq⟩ := h.run
      have hi1 : one si = 1 := by
        rcases hoi with ⟨rfl, -⟩ | ⟨_, rfl, -⟩ <;> rfl
      have hj' : (ss.set i (next E si (Op.sendState st) ()))[j]? = some none := by
        rw [getElem?_set_ne' _ hij]; exact hsj
      have t1 := tot_set one (next E si (Op.sendState st) ()) hsi
      have t2 := tot_set one (next E none Op.monSelect (.state st)) hj'
      have n1 : one (next E si (Op.sendState st) ()) = 0 := rfl
      have n2 : one (next E none Op.monSelect (.state st)) = 1 := rfl
      have n3 : one none = 0 := rfl
      have hle := h.le
      have hge := tot_ge one hsi
      have hrun : turns .start (tr ++ [⟨i, gi, Op.sendState st, ()⟩, ⟨j, gj, Op.monSelect, .state st⟩]) =
          some .ready := by
        rw [run_append, hp]
        rcases hoi with ⟨rfl, rfl⟩ | ⟨raw, rfl, rfl⟩
        · have := hq i _ hsi; subst this; rfl
        · have := hq i _ hsi; subst this; simp [turns]
      have nl : ∀ x ∈ tr, lostRead E x = false := by
        intro x hxm
        cases hl : lostRead E x with
        | false => rfl
        | true => have := h.lost ⟨x, hxm, hl⟩; omega
      refine ⟨by omega, ⟨_, hrun, ?_⟩, ?_, ?_⟩
      · intro k q hk
        rcases mem_set_cases (gs := []) hj' (by simpa using hk) with ⟨rfl, h2⟩ | ⟨hne, h2⟩ | h2
        · exact Option.some.inj h2
        · rcases mem_set_cases (gs := []) hsi (by simpa using h2) with ⟨rfl, h3⟩ | ⟨hne', h3⟩ | h3
          · cases h3
          · have h4 := tot_ge_two one hne' h3 hsi
            have h5 : one (some q) = 1 := rfl
            omega
          · cases h3
        · cases h2
      · rintro ⟨y, hy, hl⟩
        rcases List.mem_append.mp hy with hy | hy
        · rw [nl y hy] at hl; cases hl
        · simp only [List.mem_cons, List.not_mem_nil, or_false] at hy
          rcases hy with rfl | rfl <;> cases hl
      · have := silent_append E (silent_append E h.silent (e := ⟨i, gi, Op.sendState st, ()⟩) (by nofun))
          (e := ⟨j, gj, Op.monSelect, .state st⟩) (by nofun)
        simpa using this
  crash sh tr ss i g s o h _ _ _ := h.sh

theorem reach {w : World} (h : Reachable E w) : ∃ ss, (D E).Linked w ss ∧ I E w.sh w.trace ss :=
  Disc.reach (good E) pres
    ⟨by simp [D, born, tot, one], ⟨.start, rfl, fun i q h => by
      rcases i with _ | _ | _ | i <;> simp [D, born] at h
      exact h.symm⟩, fun ⟨x, hx, _⟩ => by (simp at hx), fun l₁ x l₂ h => by simp at h⟩ h

end M3.Conn.Token
