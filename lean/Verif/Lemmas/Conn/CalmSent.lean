import Verif.Lemmas.Conn.CalmInv
import Verif.Props.Conn.EndToEnd

/- What an endpoint sends in a session without disturbances: its two messages of the handshake, then what the user wants. -/

set_option autoImplicit false
set_option linter.unusedSimpArgs false

namespace M3.Conn.Calm

open Spec

/-- The handshake messages of an endpoint. -/
def hand (E : Env) : List Bytes :=
  match E.mode with
  | .client => [(M3UA.aspUp (Msg.AspUp.new E.cfg.aspIdentifier none)).wire,
      (M3UA.aspActive (Msg.AspActive.new E.cfg.trafficModeType E.cfg.routingContexts none)).wire]
  | .server => [(M3UA.aspUpAck (Msg.AspUpAck.new E.cfg.aspIdentifier none)).wire,
      (M3UA.aspActiveAck (Msg.AspActiveAck.new E.cfg.trafficModeType E.cfg.routingContexts none)).wire]

/-- How many of them were sent when `n` datagrams have been read. -/
def need (m : Mode) (n : Nat) (s : G) : Nat :=
  match m, s with
  | .client, .updd _ _ | .client, .ready => min (n + 1) 2
  | .client, _ => min n 2
  | .server, .raw _ | .server, .pkt _ => min (n - 1) 2
  | .server, _ => min n 2

/-- The first `k` messages of the handshake were sent; whatever came then is from the user. -/
def Sent (E : Env) (k : Nat) (sh : Shared) (tr : List Rec) : Prop :=
  ∃ t₁ t₂, tr = t₁ ++ t₂ ∧ (sends t₁).map (·.bytes) = (hand E).take k ∧ ownSends t₂ = [] ∧
    (sh.handed = false → sends t₂ = []) ∧ (sh.handed = true → 2 ≤ k)

theorem ownSends_append (a b : List Rec) : ownSends (a ++ b) = ownSends a ++ ownSends b := by
  simp [ownSends, sends]

theorem Sent.grow {E : Env} {k : Nat} {sh sh' : Shared} {tr : List Rec} (h : Sent E k sh tr) (x : Rec) (h1 : sends [x] = [])
    (h2 : sh'.handed = true → sh.handed = true ∨ 2 ≤ k) (h3 : sh'.handed = false → sh.handed = false) : Sent E k sh' (tr ++ [x]) := by
  obtain ⟨t₁, t₂, rfl, a, b, c, d⟩ := h
  refine ⟨t₁, t₂ ++ [x], by simp, a, ?_, ?_, ?_⟩
  · rw [ownSends_append, b, List.nil_append, ownSends]
    cases hx : ofUser x.gor <;> simp [hx, h1]
    rfl
  · intro h
    rw [sends_append, c (h3 h), h1]; rfl
  · intro h
    rcases h2 h with h | h
    · exact d h
    · exact h

theorem Sent.user {E : Env} {k : Nat} {sh sh' : Shared} {tr : List Rec} (h : Sent E k sh tr) (x : Rec) (h1 : ofUser x.gor = true)
    (h2 : sh.handed = true) (h3 : sh'.handed = sh.handed) : Sent E k sh' (tr ++ [x]) := by
  obtain ⟨t₁, t₂, rfl, a, b, c, d⟩ := h
  refine ⟨t₁, t₂ ++ [x], by simp, a, ?_, ?_, ?_⟩
  · rw [ownSends_append, b, List.nil_append, ownSends]
    simp [h1]; rfl
  · intro h; rw [h3, h2] at h; cases h
  · intro _; exact d h2

theorem Sent.own {E : Env} {k : Nat} {sh sh' : Shared} {tr : List Rec} (h : Sent E k sh tr) (x : Rec) {b : Bytes}
    (h1 : (sends [x]).map (·.bytes) = [b]) (h2 : sh.handed = false) (h3 : sh'.handed = false) (h4 : (hand E)[k]? = some b) :
    Sent E (k + 1) sh' (tr ++ [x]) := by
  obtain ⟨t₁, t₂, rfl, a, -, c, d⟩ := h
  refine ⟨t₁ ++ t₂ ++ [x], [], by simp, ?_, rfl, fun _ => rfl, ?_⟩
  · rw [sends_append, sends_append, c h2, List.append_nil, List.map_append, a, h1]
    rw [List.take_add_one, h4]; rfl
  · intro h; rw [h3] at h; cases h

/-- Heartbeats are disabled and none arrives. -/
def Still (E : Env) (tr : List Rec) : Prop := E.hb.enabled = false ∧ ∀ b ∈ receives tr, meaning b ≠ some .heartbeat

structure J (E : Env) (sh : Shared) (tr : List Rec) (ss : List G) : Prop where
  free : ∀ i : Nat, ss[i]? = some .free → sh.handed = true
  sent : ∀ (i : Nat) (s : G), ss[i]? = some s → s.tok = true → Sent E (need E.mode (receives tr).length s) sh tr

/-- The kind of the datagram that comes as number `i`, and what follows for the answer. -/
theorem expected_kind {E : Env} {i : Nat} {b : Bytes} {k : Kind} (h : expectedAt E.mode i b) (hk : kindOf b = some k) :
    (∀ b', answer E k = some b' → E.mode = .server ∧ i < 2 ∧ (hand E)[i]? = some b') ∧
    (answer E k = none → E.mode = .client ∨ 2 ≤ i) ∧ (k = .heartbeat → meaning b = some .heartbeat) := by
  obtain ⟨mode, cfg, hb, ms⟩ := E
  match i with
  | 0 =>
    cases mode <;> simp only [expectedAt] at h <;> simp only [kindOf, h] at hk <;> cases hk <;>
      refine ⟨fun b' h => ?_, fun h => ?_, by intro e; cases e⟩ <;> first | (cases h; done) | (exact .inl rfl) | skip
    exact ⟨rfl, by omega, h⟩
  | 1 =>
    cases mode <;> simp only [expectedAt] at h <;> simp only [kindOf, h] at hk <;> cases hk <;>
      refine ⟨fun b' h => ?_, fun h => ?_, by intro e; cases e⟩ <;> first | (cases h; done) | (exact .inl rfl) | skip
    exact ⟨rfl, by omega, h⟩
  | i + 2 =>
    rcases h with ⟨pd, h⟩ | h | h | h
    · obtain ⟨d, p, h1, h2, -, h3, h4⟩ := carries_data h
      simp [kindOf, h1, h2, full, h3, h4] at hk
      subst hk
      exact ⟨fun _ h => (by cases h), fun _ => .inr (by omega), fun e => (by cases e)⟩
    · simp only [kindOf, h] at hk; cases hk
      exact ⟨fun _ h => (by cases h), fun _ => .inr (by omega), fun _ => h⟩
    · simp only [kindOf, h] at hk; cases hk
      exact ⟨fun _ h => (by cases h), fun _ => .inr (by omega), fun e => (by cases e)⟩
    · simp only [kindOf, h] at hk; cases hk
      exact ⟨fun _ h => (by cases h), fun _ => .inr (by omega), fun e => (by cases e)⟩

/-- Goroutines of the library without the right to move the connection on neither send nor read. -/
theorem quiet_step {E : Env} {s : G} {o : Op} {r : Resp o} (hb : E.hb.enabled = false) (ht : s.tok = false) (hs : s ≠ .free) (ho : s ≠ .off)
    (hc : s ≠ .close) (hok : ok E s o) (i : Nat) (g : Gor) : sends [⟨i, g, o, r⟩] = [] ∧ receives [⟨i, g, o, r⟩] = [] := by
  cases s <;> first | (cases ht; done) | (exact (hs rfl).elim) | (exact (ho rfl).elim) | (exact (hc rfl).elim) | skip
  · cases o <;> first | exact ⟨rfl, rfl⟩ | (simp only [ok, okBeat, hb] at hok; cases hok; done) | (cases hok; done)
  · cases hok
  · obtain rfl : o = .estSelect := hok
    exact ⟨rfl, rfl⟩
  · obtain rfl : o = .opened .conn := hok
    exact ⟨rfl, rfl⟩
  · cases o <;> first | exact ⟨rfl, rfl⟩ | (cases hok; done)
  · rcases hok with rfl | rfl <;> exact ⟨rfl, rfl⟩

theorem free_step {E : Env} {o : Op} (r : Resp o) (hok : ok E .free o) (i : Nat) (g : Gor) : receives [⟨i, g, o, r⟩] = [] := by
  cases o <;> first | rfl | (cases hok; done)

/-- Who has not got the right to move the connection on does not get it by a step of his own. -/
theorem tok_next {E : Env} {s : G} {o : Op} {r : Resp o} {sh sh' : Shared} (ht : s.tok = false) (hok : ok E s o) (hx : Exec sh o r sh')
    (hcx : sh.ctxDone = false) (hs : s ≠ .off) : (next s o r).tok = false ∧ ∀ t ∈ (spawned o).map born, t.tok = false := by
  cases s <;> first | (cases ht; done) | (exact (hs rfl).elim) | skip
  · cases o <;> first | (cases hok; done) | skip
    all_goals refine ⟨?_, by intro t h; cases h⟩
    all_goals first | rfl | (cases r <;> rfl)
  · cases o <;> first | (cases hok; done) | skip
    all_goals refine ⟨?_, by intro t h; cases h⟩
    all_goals first | rfl | (cases r <;> rfl) | (simp only [next]; split <;> rfl)
  · obtain rfl : o = .lock := hok
    exact ⟨rfl, by intro t h; cases h⟩
  · cases hok
  · obtain rfl : o = .estSelect := hok
    exact ⟨by cases r <;> rfl, by intro t h; cases h⟩
  · obtain rfl : o = .opened .conn := hok
    exact ⟨rfl, by intro t h; cases h⟩
  · cases o <;> first | (cases hok; done) | skip
    all_goals refine ⟨?_, by intro t h; cases h⟩
    all_goals first | rfl | (simp only [next, G.seen]; split <;> rfl)
  · rcases hok with rfl | rfl
    · cases hx with
      | monCtx h1 => rw [hcx] at h1; cases h1
    · refine ⟨rfl, ?_⟩
      intro t ht
      simp [spawned, born] at ht
      subst ht; rfl

theorem handed_exec {sh sh' : Shared} {o : Op} {r : Resp o} (hx : Exec sh o r sh') : sh'.handed = sh.handed := by
  cases hx <;> rfl

theorem stage_cases (n : Nat) : (n = 0 ∧ stageAt n = .down) ∨ (n = 1 ∧ stageAt n = .inactive) ∨ (2 ≤ n ∧ stageAt n = .active) := by
  match n with
  | 0 => exact .inl ⟨rfl, rfl⟩
  | 1 => exact .inr (.inl ⟨rfl, rfl⟩)
  | n + 2 => exact .inr (.inr ⟨by omega, rfl⟩)

/-- The step of who has the right to move the connection on. -/
theorem tok_sent {E : Env} {sh sh' : Shared} {tr : List Rec} {i : Nat} {g : Gor} {s : G} {o : Op} {r : Resp o} (ht : s.tok = true)
    (hsent : Sent E (need E.mode (receives tr).length s) sh tr) (hf : Fact sh (receives tr) s) (hok : ok E s o) (hx : Exec sh o r sh')
    (hc : Clean E.mode sh tr) (hcalm : (⟨o, r⟩ : Ev).calm = true) (hq : Still E tr) :
    ((next s o r).tok = true → Sent E (need E.mode (receives (tr ++ [⟨i, g, o, r⟩])).length (next s o r)) sh' (tr ++ [⟨i, g, o, r⟩])) ∧
    ∀ t ∈ (spawned o).map born, t.tok = true → Sent E (need E.mode (receives (tr ++ [⟨i, g, o, r⟩])).length t) sh' (tr ++ [⟨i, g, o, r⟩]) := by
  have hh := handed_exec hx
  have grow : ∀ k, Sent E k sh tr → sends [(⟨i, g, o, r⟩ : Rec)] = [] → Sent E k sh' (tr ++ [⟨i, g, o, r⟩]) := fun k h1 h2 =>
    h1.grow _ h2 (fun h => .inl (hh ▸ h)) (fun h => hh ▸ h)
  have same : receives [(⟨i, g, o, r⟩ : Rec)] = [] → receives (tr ++ [⟨i, g, o, r⟩]) = receives tr := fun h => by
    rw [Flow.receives_append, h, List.append_nil]
  have nosp : (spawned o).map born = [] → ∀ t ∈ (spawned o).map born, t.tok = true →
      Sent E (need E.mode (receives (tr ++ [⟨i, g, o, r⟩])).length t) sh' (tr ++ [⟨i, g, o, r⟩]) := fun h t ht => by
    rw [h] at ht; cases ht
  cases s <;> first | (cases ht; done) | skip
  case start =>
    obtain rfl : o = .sendState .down := hok
    cases hx
  case pkt k =>
    obtain ⟨⟨rs, b, hr, hk⟩, h1, h2, h3⟩ := hf
    have hlen : (receives tr).length = rs.length + 1 := by rw [hr]; simp
    obtain ⟨ka, kb, kc⟩ := expected_kind (hc.last hr) hk
    cases o <;> first | (cases hok; done) | skip
    case state =>
      refine ⟨fun hn => ?_, nosp rfl⟩
      rw [same rfl]
      simp only [next, G.seen] at hn ⊢
      split at hn
      · rename_i he
        rw [if_pos he]
        exact grow _ hsent rfl
      · cases hn
    case sendState => cases hx
    case ctxDone =>
      cases hx
      refine ⟨fun hn => ?_, nosp rfl⟩
      rw [same rfl]
      simp only [next] at hn ⊢
      split at hn
      · cases hn
      · rename_i he
        rw [if_neg he]
        exact grow _ hsent rfl
    case info =>
      refine ⟨fun hn => ?_, nosp rfl⟩
      rw [same rfl]
      exact grow _ hsent rfl
    case write b' st =>
      refine ⟨fun hn => ?_, nosp rfl⟩
      rw [same rfl]
      have hok : answer E k = some b' ∨ k = .heartbeat := hok
      rcases hok with hok | rfl
      · obtain ⟨m1, m2, m3⟩ := ka _ hok
        cases r with
        | none => cases hcalm
        | some a =>
          have e1 : need E.mode (receives tr).length (.pkt k) = rs.length := by
            rw [m1, hlen]; simp only [need]; omega
          have e2 : need E.mode (receives tr).length (next (.pkt k) (.write b' st) (some a)) = rs.length + 1 := by
            rw [m1, hlen]; simp only [need, next, G.wrote, Option.isSome_some]; omega
          have e3 : sh.handed = false := by rw [h3, hlen]; simp; omega
          rw [e2]
          rw [e1] at hsent
          exact hsent.own _ rfl e3 (hh.trans e3) m3
      · exact (hq.2 b (by rw [hr]; simp) (kc rfl)).elim
    case spawn g' =>
      obtain ⟨rfl, m', rfl, hm⟩ := hok
      refine ⟨fun hn => ?_, ?_⟩
      · rw [same rfl]
        exact grow _ hsent rfl
      · intro t ht
        simp [spawned, born, hm] at ht
        subst ht
        intro h; cases h
  case pktd k =>
    cases o <;> first | (cases hok; done) | skip
    case state =>
      refine ⟨fun hn => ?_, nosp rfl⟩
      rw [same rfl]
      simp only [next, G.seen] at hn ⊢
      split at hn
      · rename_i he
        rw [if_pos he]
        exact grow _ hsent rfl
      · cases hn
    case sendState => cases hx
  case got s =>
    obtain rfl : o = .lock := hok
    refine ⟨fun _ => ?_, nosp rfl⟩
    rw [same rfl]
    have := grow _ hsent rfl
    cases hm : E.mode <;> rw [hm] at this <;> exact this
  case lckd s =>
    obtain rfl : o = .getSt := hok
    refine ⟨fun _ => ?_, nosp rfl⟩
    rw [same rfl]
    have := grow _ hsent rfl
    cases hm : E.mode <;> rw [hm] at this <;> exact this
  case prev s p =>
    obtain rfl : o = .putSt s := hok
    refine ⟨fun _ => ?_, nosp rfl⟩
    rw [same rfl]
    have := grow _ hsent rfl
    cases hm : E.mode <;> rw [hm] at this <;> exact this
  case upd s p =>
    obtain ⟨h1, h2, h3, h4, h5⟩ := hf
    cases o <;> first | (cases hok; done) | skip
    case sendEst => cases hx
    case broadcast =>
      refine ⟨fun hn => ?_, nosp rfl⟩
      rw [same rfl]
      exact grow _ hsent rfl
    case info =>
      refine ⟨fun hn => ?_, nosp rfl⟩
      rw [same rfl]
      exact grow _ hsent rfl
    case unlock =>
      refine ⟨fun _ => ?_, nosp rfl⟩
      rw [same rfl]
      have hg := grow _ hsent rfl
      have hok : entry E s = none := hok.1
      have : need E.mode (receives tr).length (.upd s p) = need E.mode (receives tr).length .ready := by
        cases hm : E.mode with
        | server => rfl
        | client =>
          simp only [need]
          rcases stage_cases (receives tr).length with ⟨ha, hb⟩ | ⟨ha, hb⟩ | ⟨ha, hb⟩ <;> rw [← h1] at hb <;> subst hb
          · simp [entry, hm] at hok
          · simp [entry, hm] at hok
          · omega
      show Sent E (need E.mode (receives tr).length .ready) _ _
      rw [← this]; exact hg
    case write b' st =>
      refine ⟨fun hn => ?_, nosp rfl⟩
      rw [same rfl]
      have hok : entry E s = some b' := hok
      cases r with
      | none => cases hcalm
      | some a =>
        cases hm : E.mode with
        | server => cases s <;> simp [entry, hm] at hok
        | client =>
          have hsa : s ≠ .active := by rintro rfl; cases hok
          have e3 : sh.handed = false := by rw [h4]; exact decide_eq_false fun h => hsa (h5 h)
          rcases stage_cases (receives tr).length with ⟨ha, hb⟩ | ⟨ha, hb⟩ | ⟨ha, hb⟩ <;> rw [← h1] at hb
          · rw [ha, hm] at hsent; rw [ha]
            refine hsent.own _ rfl e3 (hh.trans e3) ?_
            subst hb
            simpa [hand, entry, need, hm] using hok
          · rw [ha, hm] at hsent; rw [ha]
            refine hsent.own _ rfl e3 (hh.trans e3) ?_
            subst hb
            simpa [hand, entry, need, hm] using hok
          · exact (hsa hb).elim
  case updd s p =>
    obtain rfl : o = .unlock := hok
    refine ⟨fun _ => ?_, nosp rfl⟩
    rw [same rfl]
    have := grow _ hsent rfl
    cases hm : E.mode <;> rw [hm] at this <;> exact this
  case ready =>
    obtain rfl : o = .read 1500 := hok
    refine ⟨fun hn => ?_, nosp rfl⟩
    have hg := grow _ hsent rfl
    cases r with
    | none => cases hcalm
    | some d =>
      have : (receives (tr ++ [⟨i, g, .read 1500, some d⟩])).length = (receives tr).length + 1 := by
        rw [Flow.receives_append, List.length_append]; rfl
      rw [this]
      cases hm : E.mode <;> rw [hm] at hg
      · exact hg
      · exact hg
  case raw b =>
    obtain rfl : o = .spawn (.packet b) := hok
    obtain ⟨⟨rs, hr⟩, h1, h2, h3⟩ := hf
    obtain ⟨k, hk, hb, ha, hd⟩ := expected (hc.last hr)
    refine ⟨fun hn => ?_, ?_⟩
    · cases hn
    · intro t ht _
      simp [spawned, born, hk] at ht
      subst ht
      rw [same rfl]
      have hg := grow _ hsent rfl
      cases hm : E.mode <;> rw [hm] at hg <;> exact hg

theorem Sent.non {E : Env} {k : Nat} {sh sh' : Shared} {tr : List Rec} {i : Nat} {g : Gor} {s : G} {o : Op} {r : Resp o} (h : Sent E k sh tr)
    (hb : E.hb.enabled = false) (ht : s.tok = false) (ho : s ≠ .off) (hc : s ≠ .close) (hfit : Fits g s) (hok : ok E s o)
    (hfree : s = .free → sh.handed = true) (hh : sh'.handed = sh.handed) : Sent E k sh' (tr ++ [⟨i, g, o, r⟩]) := by
  by_cases hs : s = .free
  · exact h.user _ ((fits_user hfit ho).1.mpr (.inl hs)) (hfree hs) hh
  · exact h.grow _ (quiet_step hb ht hs ho hc hok i g).1 (fun h => .inl (hh ▸ h)) (fun h => hh ▸ h)

theorem still_before {E : Env} {tr l : List Rec} (h : Still E (tr ++ l)) : Still E tr :=
  ⟨h.1, fun b hb => h.2 b (by rw [Flow.receives_append]; exact List.mem_append_left _ hb)⟩

/-- Nobody becomes a call of the user. -/
theorem free_next {s : G} {o : Op} {r : Resp o} (h : next s o r = .free) : s = .free := by
  cases o <;> simp only [next] at h
  all_goals first
    | exact h
    | (split at h <;> first | exact h | cases h)
    | skip
  all_goals cases s <;> first | rfl | (cases h; done) | (simp only [G.seen] at h; split at h <;> cases h) | skip
  all_goals cases r <;> first | (cases h; done) | (rename_i x; cases x <;> cases h)

theorem free_born {E : Env} {s : G} {o : Op} {t : G} (hok : ok E s o) (hs : s ≠ .off) (h : t ∈ (spawned o).map born) : t ≠ .free := by
  rintro rfl
  cases o <;> first | (cases h; done) | skip
  rename_i g
  simp only [spawned, List.map_cons, List.map_nil, List.mem_singleton] at h
  cases s <;> first | (exact (hs rfl).elim) | (cases hok; done) | skip
  · rcases hok with hok | hok <;> cases hok
    cases h
  · obtain ⟨-, m, rfl, hm⟩ := hok
    simp [born, hm] at h
  · cases hok
    simp only [born] at h
    split at h <;> cases h

theorem run_sent {E : Env} {sh sh' : Shared} {tr : List Rec} {ss : List G} {i : Nat} {g : Gor} {s : G} {o : Op} {r : Resp o} {cm : Nat}
    (h : Inv 1 cm sh tr ss) (hj : J E sh tr ss) (hs : ss[i]? = some s) (hfit : Fits g s) (hok : ok E s o) (hx : Exec sh o r sh')
    (hc : Clean E.mode sh tr) (hc' : Clean E.mode sh' (tr ++ [⟨i, g, o, r⟩])) (hq : Still E tr) :
    J E sh' (tr ++ [⟨i, g, o, r⟩]) (ss.set i (next s o r) ++ (spawned o).map born) := by
  have hh := handed_exec hx
  have hf := h.fact i s hs
  have hoff : s ≠ .off := by rintro rfl; exact hf.elim
  have hclose : s ≠ .close := fun e => hc'.user ⟨i, g, o, r⟩ (by simp) ((fits_user hfit hoff).2 e)
  refine ⟨fun j hj' => ?_, fun j t hj' ht => ?_⟩
  · rw [hh]
    rcases mem_set_cases hs hj' with ⟨-, hn⟩ | ⟨-, hj'⟩ | hj'
    · exact hj.free i (by rw [hs, free_next hn.symm])
    · exact hj.free j hj'
    · exact (free_born hok hoff hj' rfl).elim
  · cases hst : s.tok with
    | true =>
      have hu : ofUser g = false := by
        cases hg : ofUser g with
        | false => rfl
        | true => rcases (fits_user hfit hoff).1.mp hg with rfl | rfl <;> cases hst
      obtain ⟨a, b⟩ := tok_sent (i := i) (g := g) hst (hj.sent i s hs hst) hf hok hx hc (hc'.calm ⟨i, g, o, r⟩ (by simp) hu) hq
      rcases mem_set_cases hs hj' with ⟨-, rfl⟩ | ⟨hji, hj'⟩ | hj'
      · exact a ht
      · have := tok_zero h.tok rfl (Ne.symm hji) hs hst hj'
        rw [ht] at this; cases this
      · exact b t hj' ht
    | false =>
      obtain ⟨a, b⟩ := tok_next hst hok hx hc.ctx hoff
      rcases mem_set_cases hs hj' with ⟨-, rfl⟩ | ⟨hji, hj'⟩ | hj'
      · rw [ht] at a; cases a
      · have hr : receives (tr ++ [⟨i, g, o, r⟩]) = receives tr := by
          rw [Flow.receives_append]
          by_cases hfree : s = .free
          · subst hfree
            rw [free_step r hok i g, List.append_nil]
          · rw [(quiet_step hq.1 hst hfree hoff hclose hok i g).2, List.append_nil]
        rw [hr]
        exact (hj.sent j t hj' ht).non hq.1 hst hoff hclose hfit hok (fun e => hj.free i (by rw [hs, e])) hh
      · have := b t hj'
        rw [ht] at this; cases this

theorem sync_sent {E : Env} {sh sh' : Shared} {tr : List Rec} {ss : List G} {i j : Nat} {gi gj : Gor} {si sj : G} {oi oj : Op}
    {ri : Resp oi} {rj : Resp oj} {cm : Nat} (h : Inv 1 cm sh tr ss) (hjj : J E sh tr ss) (hij : i ≠ j) (hsi : ss[i]? = some si)
    (hsj : ss[j]? = some sj) (hoi : ok E si oi) (hoj : ok E sj oj) (hx : Sync sh oi ri oj rj sh') (hc : Clean E.mode sh tr) :
    J E sh' (tr ++ [⟨i, gi, oi, ri⟩, ⟨j, gj, oj, rj⟩]) ((ss.set i (next si oi ri)).set j (next sj oj rj)) := by
  have hfi := h.fact i si hsi
  have hfj := h.fact j sj hsj
  have hio : si ≠ .off := by rintro rfl; exact hfi.elim
  have hjo : sj ≠ .off := by rintro rfl; exact hfj.elim
  have hfree : ∀ k : Nat, ((ss.set i (next si oi ri)).set j (next sj oj rj))[k]? = some .free → ss[k]? = some .free := by
    intro k hk
    have hj' : (ss.set i (next si oi ri))[j]? = some sj := by rw [getElem?_set_ne' _ hij]; exact hsj
    rw [← List.append_nil ((ss.set i (next si oi ri)).set j (next sj oj rj))] at hk
    rcases mem_set_cases hj' hk with ⟨rfl, hn⟩ | ⟨hji, hk⟩ | hk
    · rw [hsj, free_next hn.symm]
    · rw [← List.append_nil (ss.set i (next si oi ri))] at hk
      rcases mem_set_cases hsi hk with ⟨rfl, hn⟩ | ⟨hji, hk⟩ | hk
      · rw [hsi, free_next hn.symm]
      · exact hk
      · cases hk
    · cases hk
  have hcase : ∀ (k : Nat) (t : G), ((ss.set i (next si oi ri)).set j (next sj oj rj))[k]? = some t →
      (t = next sj oj rj) ∨ (t = next si oi ri) ∨ (k ≠ i ∧ k ≠ j ∧ ss[k]? = some t) := by
    intro k t hk
    have hj' : (ss.set i (next si oi ri))[j]? = some sj := by rw [getElem?_set_ne' _ hij]; exact hsj
    rw [← List.append_nil ((ss.set i (next si oi ri)).set j (next sj oj rj))] at hk
    rcases mem_set_cases hj' hk with ⟨-, hn⟩ | ⟨hkj, hk⟩ | hk
    · exact .inl hn
    · rw [← List.append_nil (ss.set i (next si oi ri))] at hk
      rcases mem_set_cases hsi hk with ⟨-, hn⟩ | ⟨hki, hk⟩ | hk
      · exact .inr (.inl hn)
      · exact .inr (.inr ⟨hki, hkj, hk⟩)
      · cases hk
    · cases hk
  have split2 : tr ++ [(⟨i, gi, oi, ri⟩ : Rec), ⟨j, gj, oj, rj⟩] = tr ++ [⟨i, gi, oi, ri⟩] ++ [⟨j, gj, oj, rj⟩] := by simp
  cases hx with
  | err => cases si <;> first | (cases hoi; done) | exact hfi.elim | (rcases hoi with h | h <;> cases h; done)
  | ack _ => cases si <;> first | (cases hoi; done) | exact hfi.elim | (rcases hoi with h | h <;> cases h; done)
  | est _ =>
    cases sj <;> first | (cases hoj; done) | exact hfj.elim | (rcases hoj with h | h <;> cases h; done) | skip
    cases si <;> first | (cases hoi; done) | exact hfi.elim | (rcases hoi with h | h <;> cases h; done) | skip
    rename_i s p
    obtain ⟨rfl, hp⟩ : s = .active ∧ p ≠ .active := hoi
    obtain ⟨h1, h2, h3, h4, h5⟩ := hfi
    have hs := hjj.sent i _ hsi rfl
    have hn : 2 ≤ (receives tr).length := by
      rcases stage_cases (receives tr).length with ⟨ha, hb⟩ | ⟨ha, hb⟩ | ⟨ha, hb⟩
      · rw [← h1] at hb; cases hb
      · rw [← h1] at hb; cases hb
      · exact ha
    have hk : need E.mode (receives tr).length (.upd .active p) = 2 := by
      cases E.mode <;> simp only [need] <;> omega
    have hk' : need E.mode (receives tr).length (.upd .active .active) = 2 := by
      cases E.mode <;> simp only [need] <;> omega
    refine ⟨fun _ _ => rfl, fun k t hk'' ht => ?_⟩
    have hr : receives (tr ++ [(⟨i, gi, .sendEst, ()⟩ : Rec), ⟨j, gj, .estSelect, .ok⟩]) = receives tr := by
      rw [Flow.receives_append]; exact List.append_nil _
    rw [hr, split2]
    rcases hcase k t hk'' with rfl | rfl | ⟨hki, hkj, hk''⟩
    · cases ht
    · show Sent E (need E.mode (receives tr).length (.upd .active .active)) _ _
      rw [hk']
      rw [hk] at hs
      exact (hs.grow (sh' := { sh with handed := true }) ⟨i, gi, .sendEst, ()⟩ rfl (fun _ => .inr (Nat.le_refl 2)) (by intro h; cases h)).grow
        ⟨j, gj, .estSelect, .ok⟩ rfl (fun _ => .inr (Nat.le_refl 2)) (by intro h; cases h)
    · have := tok_zero h.tok rfl (Ne.symm hki) hsi rfl hk''
      rw [ht] at this; cases this
  | state =>
    cases sj <;> first | (cases hoj; done) | exact hfj.elim | skip
    rename_i s
    have key : si.tok = true ∧ next si (.sendState s) () = .over ∧ s = stageAt (receives tr).length ∧
        need E.mode (receives tr).length (.got s) = need E.mode (receives tr).length si := by
      cases si <;> first | (cases hoi; done) | exact hfi.elim | (rcases hoi with h | h <;> cases h; done) | skip
      · cases hoi
        obtain ⟨h1, h2, h3, h4⟩ := hfi
        refine ⟨rfl, rfl, ?_, ?_⟩ <;> rw [h1]
        · rfl
        · cases E.mode <;> rfl
      · rename_i k
        obtain ⟨rfl, hans⟩ : s = after k ∧ answer E k = none := hoi
        obtain ⟨⟨rs, b, hr, hk⟩, h1, h2, h3⟩ := hfi
        obtain ⟨k', hk', hb, ha, hd⟩ := expected (hc.last hr)
        rw [hk] at hk'; cases hk'
        have hlen : (receives tr).length = rs.length + 1 := by rw [hr]; simp
        refine ⟨rfl, rfl, ?_, ?_⟩
        · rw [ha, hr]; simp
        · have := (expected_kind (hc.last hr) hk).2.1 hans
          cases hm : E.mode with
          | client => rfl
          | server =>
            rcases this with h | h
            · rw [hm] at h; cases h
            · simp only [need]; omega
      · rename_i k
        obtain rfl : s = after k := hoi
        obtain ⟨⟨rs, b, hr, hk⟩, h1, h2, h3⟩ := hfi
        obtain ⟨k', hk', hb, ha, hd⟩ := expected (hc.last hr)
        rw [hk] at hk'; cases hk'
        refine ⟨rfl, rfl, ?_, ?_⟩
        · rw [ha, hr]; simp
        · cases E.mode <;> rfl
    obtain ⟨k1, k3, k4, k5⟩ := key
    refine ⟨fun k hk => hjj.free k (hfree k hk), fun k t hk'' ht => ?_⟩
    have hr : receives (tr ++ [(⟨i, gi, .sendState s, ()⟩ : Rec), ⟨j, gj, .monSelect, .state s⟩]) = receives tr := by
      rw [Flow.receives_append]; exact List.append_nil _
    rw [hr, split2]
    rcases hcase k t hk'' with rfl | rfl | ⟨hki, hkj, hk''⟩
    · have k6 : next .wait .monSelect (.state s) = .got s := by
        rw [k4]; exact heard_stage _
      rw [k6, k5]
      exact ((hjj.sent i _ hsi k1).grow (sh' := sh) ⟨i, gi, .sendState s, ()⟩ rfl .inl id).grow ⟨j, gj, .monSelect, .state s⟩ rfl .inl id
    · rw [k3] at ht; cases ht
    · have := tok_zero h.tok rfl (Ne.symm hki) hsi k1 hk''
      rw [ht] at this; cases this

def IJ (E : Env) (sh : Shared) (tr : List Rec) (ss : List G) : Prop :=
  I E.mode sh tr ss ∧ (Clean E.mode sh tr → Still E tr → J E sh tr ss)

theorem J.same {E : Env} {sh sh' : Shared} {tr : List Rec} {ss : List G} (h : J E sh tr ss) (hh : sh'.handed = sh.handed) : J E sh' tr ss where
  free i hi := by rw [hh]; exact h.free i hi
  sent i s hi hs := by
    obtain ⟨t₁, t₂, a, b, c, d, e⟩ := h.sent i s hi hs
    exact ⟨t₁, t₂, a, b, c, by rw [hh]; exact d, by rw [hh]; exact e⟩

theorem pres_sent (E : Env) : Pres (D E) (IJ E) where
  env sh sh' tr ss h he := by
    refine ⟨(pres E E.mode).env _ _ _ _ h.1 he, fun hc hq => ?_⟩
    cases he
    · exact (h.2 ⟨hc.1, hc.2, hc.3, hc.4⟩ hq).same rfl
    · have := hc.ctx; cases this
    · exact (h.2 ⟨hc.1, hc.2, hc.3, hc.4⟩ hq).same rfl
  call sh tr ss c h hh := by
    refine ⟨(pres E E.mode).call _ _ _ _ h.1 hh, fun hc hq => ?_⟩
    have hj := h.2 hc hq
    have hb : ((D E).born (.api c)).tok = false := by cases c <;> rfl
    refine ⟨fun _ _ => hh, fun i s hi hs => ?_⟩
    by_cases hl : i < ss.length
    · rw [List.getElem?_append_left hl] at hi
      exact hj.sent i s hi hs
    · rw [List.getElem?_append_right (by omega)] at hi
      rw [List.mem_singleton.mp (List.mem_of_getElem? hi), hb] at hs
      cases hs
  run sh sh' tr ss i g s o r h hs hok hx := by
    obtain ⟨a, b⟩ := (pres E E.mode).run _ _ _ _ i g s o r h.1 hs hok hx
    refine ⟨a, b, fun hc hq => ?_⟩
    have hc0 := hc.before (Keep.ctx_mono hx)
    exact run_sent (h.1.2 hc0) (h.2 hc0 (still_before hq)) hs hok.1 hok.2 hx hc0 hc (still_before hq)
  sync sh sh' tr ss i j gi gj si sj oi oj ri rj h hij hsi hsj hoi hoj hx := by
    obtain ⟨a, a', b⟩ := (pres E E.mode).sync _ _ _ _ i j gi gj si sj oi oj ri rj h.1 hij hsi hsj hoi hoj hx
    refine ⟨a, a', b, fun hc hq => ?_⟩
    have hc0 : Clean E.mode sh tr := hc.before (by cases hx <;> exact id)
    exact sync_sent (h.1.2 hc0) (h.2 hc0 (still_before hq)) hij hsi hsj hoi.2 hoj.2 hx hc0
  crash sh tr ss i g s o h hs hok hx :=
    ⟨(pres E E.mode).crash _ _ _ i g s o h.1 hs hok hx, fun hc hq => (h.2 ⟨hc.1, hc.2, hc.3, hc.4⟩ hq).same rfl⟩

theorem roles_sent {E : Env} (hE : E.maxStream ≠ 0) {w : World} (h : Reachable E w) (hu : Undisturbed E.mode w) (hq : Still E w.trace) :
    ∃ ss, (D E).Linked w ss ∧ Inv 1 (if w.sh.handed then 0 else 1) w.sh w.trace ss ∧ J E w.sh w.trace ss := by
  obtain ⟨ss, hl, hi, hj⟩ := Disc.reach (I := IJ E) (good hE) (pres_sent E) (by
    refine ⟨⟨rfl, fun _ => ⟨⟨rfl, rfl, rfl, rfl, rfl⟩, by intro x h; (cases h), ?_, rfl, rfl, rfl, .inl ⟨0, .main, rfl, rfl⟩⟩⟩, fun _ _ => ⟨?_, ?_⟩⟩
    · intro i s hs
      match i with
      | 0 => cases hs; trivial
      | 1 => cases hs; exact ⟨rfl, rfl, rfl, rfl⟩
      | 2 => cases hs; trivial
      | i + 3 => simp at hs
    · intro i hs
      match i with
      | 0 => cases hs
      | 1 => cases hs
      | 2 => cases hs
      | i + 3 => simp at hs
    · intro i s hs ht
      match i with
      | 0 => cases hs; cases ht
      | 1 =>
        cases hs
        refine ⟨[], [], rfl, ?_, rfl, fun _ => rfl, by intro h; cases h⟩
        cases hm : E.mode <;> rfl
      | 2 => cases hs; cases ht
      | i + 3 => simp at hs) h
  have hc : Clean E.mode w.sh w.trace := ⟨hu.1, hu.2, hu.3, hu.4⟩
  exact ⟨ss, hl, hi.2 hc, hj hc hq⟩

/-- What an endpoint has sent: a part of the handshake, or the whole of it and then what its user wants. -/
theorem sent {E : Env} (hE : E.maxStream ≠ 0) {w : World} (h : Reachable E w) (hu : Undisturbed E.mode w) (hq : Still E w.trace) :
    ∃ k, Sent E k w.sh w.trace := by
  obtain ⟨ss, -, hi, hj⟩ := roles_sent hE h hu hq
  obtain ⟨i, s, hs, ht⟩ := hi.holder
  exact ⟨_, hj.sent i s hs ht⟩

theorem Sent.out {E : Env} {k : Nat} {w : World} (h : Sent E k w.sh w.trace) (hp : Peaceful w) :
    ∃ l, w.out = (hand E).take k ++ l ∧ (l ≠ [] → 2 ≤ k) ∧ ∀ d ∈ l, d.length ≤ 1500 ∧ ∃ pd, carries d pd := by
  obtain ⟨t₁, t₂, ht, a, b, c, d⟩ := h
  refine ⟨(sends t₂).map (·.bytes), ?_, fun hn => ?_, fun x hx => ?_⟩
  · rw [World.out, ht, sends_append, List.map_append, a]
  · cases hh : w.sh.handed with
    | true => exact d hh
    | false => rw [c hh] at hn; exact (hn rfl).elim
  · obtain ⟨s, hs, rfl⟩ := List.mem_map.mp hx
    obtain ⟨y, hy, hys⟩ := List.mem_filterMap.mp hs
    refine hp.talk y (by rw [ht]; exact List.mem_append_right _ hy) ?_ s hys
    cases hu : ofUser y.gor with
    | true => rfl
    | false =>
      have : s ∈ ownSends t₂ := List.mem_filterMap.mpr ⟨y, List.mem_filter.mpr ⟨hy, by simp [hu]⟩, hys⟩
      rw [b] at this; cases this

theorem hand_length (E : Env) : (hand E).length = 2 := by
  cases hm : E.mode <;> simp [hand, hm]

/-- The messages of the handshake of `E` are short and are what an endpoint with mode `m` expects. -/
structure Meets (E : Env) (m : Mode) : Prop where
  short : ∀ b ∈ hand E, b.length ≤ 1500
  expected : ∀ i b, (hand E)[i]? = some b → expectedAt m i b
  mute : ∀ b ∈ hand E, meaning b ≠ some .heartbeat

theorem carries_mute {b : Bytes} {pd : ProtocolDataPayload} (h : carries b pd = true) : meaning b ≠ some .heartbeat := by
  obtain ⟨d, p, h1, h2, -⟩ := carries_data h
  rw [h2]; intro h; cases h

theorem Peaceful.before {E : Env} {w w' : World} (h : Conn.Step E w w') (hp : Peaceful w') : Peaceful w := by
  obtain ⟨l, hl⟩ := h.trace
  have hc : w'.sh.ctxDone = false → w.sh.ctxDone = false := by
    cases h with
    | env _ he => cases he <;> first | exact id | (intro h; cases h)
    | run i g hist o k r _ ht hx => exact Keep.ctx_mono hx
    | sync i j gi gj hi hj oi oj ki kj ri rj _ _ _ _ hx => cases hx <;> exact id
    | _ => exact id
  have hm : ∀ {x}, x ∈ w.trace → x ∈ w'.trace := fun hx => by rw [hl]; exact List.mem_append_left _ hx
  exact ⟨hc hp.ctx, fun x hx => hp.user x (hm hx), fun x hx => hp.calm x (hm hx), fun x hx => hp.talk x (hm hx)⟩

/-- If one end is undisturbed, what it has sent is what the other end expects. -/
theorem half {Ea Eb : Env} {p : Link} (h : Link.Reachable Ea Eb p) (hE : Ea.maxStream ≠ 0) {m : Mode} (hM : Meets Ea m)
    (hu : Undisturbed Ea.mode p.a) (hq : Still Ea p.a.trace) (hp : Peaceful p.a) :
    (∀ d ∈ p.a.out, d.length ≤ 1500) ∧ (receives p.b.trace ++ p.b.sh.inbox ++ p.toB).Perm p.a.out ∧
    ((receives p.b.trace).take 2 <+: p.a.out → Orderly m (receives p.b.trace) ∧ ∀ b ∈ receives p.b.trace, meaning b ≠ some .heartbeat) := by
  obtain ⟨k, hk⟩ := sent hE h.ends.1 hu hq
  obtain ⟨l, hl, h2, hd⟩ := hk.out hp
  have hlen : ∀ d ∈ p.a.out, d.length ≤ 1500 := by
    intro d h
    rw [hl] at h
    rcases List.mem_append.mp h with h | h
    · exact hM.short d (List.mem_of_mem_take h)
    · exact (hd d h).1
  have hperm := h.transit hlen
  refine ⟨hlen, hperm, fun ho => ?_⟩
  generalize receives p.b.trace = rs at hperm ho
  have hmem : ∀ b ∈ rs, b ∈ p.a.out := fun b hb => hperm.subset (List.mem_append_left _ (List.mem_append_left _ hb))
  refine ⟨fun i raw hi => ?_, fun b hb => ?_⟩
  · obtain ⟨out', ho'⟩ := ho
    by_cases hi2 : i < 2
    · have h1 : p.a.out[i]? = some raw := by
        rw [← ho', List.getElem?_append_left (by
          have := (List.getElem?_eq_some_iff.mp hi).1
          rw [List.length_take]; omega), List.getElem?_take, if_pos hi2]
        exact hi
      rw [hl] at h1
      by_cases hk' : i < ((hand Ea).take k).length
      · rw [List.getElem?_append_left hk', List.getElem?_take] at h1
        split at h1
        · exact hM.expected i raw h1
        · cases h1
      · rw [List.getElem?_append_right (by omega)] at h1
        have := h2 (by rintro rfl; simp at h1)
        rw [List.length_take, hand_length] at hk'
        omega
    · have hlen3 : i < rs.length := (List.getElem?_eq_some_iff.mp hi).1
      have hmem' : raw ∈ rs.drop 2 := by
        refine List.mem_of_getElem? (i := i - 2) ?_
        rw [List.getElem?_drop, show 2 + (i - 2) = i by omega]
        exact hi
      rw [← ho', List.append_assoc, show rs ++ (p.b.sh.inbox ++ p.toB) = rs.take 2 ++ (rs.drop 2 ++ (p.b.sh.inbox ++ p.toB)) by
        rw [← List.append_assoc (rs.take 2), List.take_append_drop]] at hperm
      have hout : p.a.out.drop 2 = out' := by
        rw [← ho', List.drop_left' (by rw [List.length_take]; omega)]
      have hperm := (List.perm_append_left_iff _).mp hperm
      have hraw : raw ∈ p.a.out.drop 2 := by
        rw [hout]
        exact hperm.subset (List.mem_append_left _ hmem')
      have hk2 : 2 ≤ k := by
        by_cases hk2 : 2 ≤ k
        · exact hk2
        have hnil : l = [] := by
          cases l with
          | nil => rfl
          | cons x l => exact absurd (h2 (by simp)) hk2
        rw [hl, hnil, List.append_nil, List.drop_take] at hraw
        rw [show k - 2 = 0 by omega] at hraw
        cases hraw
      rw [hl, List.take_of_length_le (by rw [hand_length]; exact hk2), List.drop_left' (hand_length Ea)] at hraw
      match i, hi2 with
      | 0, h => omega
      | 1, h => omega
      | i + 2, _ => exact .inl (hd raw hraw).2
  · have := hmem b hb
    rw [hl] at this
    rcases List.mem_append.mp this with h | h
    · exact hM.mute b (List.mem_of_mem_take h)
    · obtain ⟨-, pd, h⟩ := hd b h
      exact carries_mute h

theorem undisturbed_of {m : Mode} {w : World} (h : Peaceful w) (ho : Orderly m (receives w.trace)) : Undisturbed m w :=
  ⟨h.ctx, ho, h.user, h.calm⟩

theorem take_prefix {a b c : List Bytes} (h : a.take 2 <+: c) (hb : b <+: a) : b.take 2 <+: c := by
  obtain ⟨d, rfl⟩ := hb
  refine List.IsPrefix.trans ?_ h
  rw [List.take_append]
  exact List.prefix_append _ _

theorem growth {E : Env} {w w' : World} (h : Conn.Step E w w') : w.out <+: w'.out ∧ receives w.trace <+: receives w'.trace := by
  obtain ⟨l, hl⟩ := h.trace
  exact ⟨⟨(sends l).map (·.bytes), by rw [World.out, World.out, hl, sends_append, List.map_append]⟩,
    ⟨receives l, by rw [hl, Flow.receives_append]⟩⟩

/-- From the one end to the other. -/
theorem over {Ea Eb : Env} {p : Link} (h : Link.Reachable Ea Eb p) (hE : Ea.maxStream ≠ 0) (hM : Meets Ea Eb.mode)
    (hu : Undisturbed Ea.mode p.a ∧ Still Ea p.a.trace) (hp : Peaceful p.a) (hb : Peaceful p.b) (hq : Eb.hb.enabled = false)
    {A : List Bytes} (hA : p.a.out <+: A) (ho : (receives p.b.trace).take 2 <+: A) : Undisturbed Eb.mode p.b ∧ Still Eb p.b.trace := by
  obtain ⟨-, h1, h2⟩ := half h hE hM hu.1 hu.2 hp
  have := h1.length_eq
  simp only [List.length_append] at this
  obtain ⟨h3, h4⟩ := h2 (List.prefix_of_prefix_length_le ho hA (by rw [List.length_take]; omega))
  exact ⟨undisturbed_of hb h3, hq, h4⟩

/-- A connection between two undisturbed endpoints. -/
theorem both {Ea Eb : Env} (hEa : Ea.maxStream ≠ 0) (hEb : Eb.maxStream ≠ 0) (hMa : Meets Ea Eb.mode) (hMb : Meets Eb Ea.mode)
    (hqa : Ea.hb.enabled = false) (hqb : Eb.hb.enabled = false) {p : Link} (h : Link.Reachable Ea Eb p)
    (ha : Peaceful p.a) (hb : Peaceful p.b) (ho : InOrder p) :
    (Undisturbed Ea.mode p.a ∧ Still Ea p.a.trace) ∧ Undisturbed Eb.mode p.b ∧ Still Eb p.b.trace := by
  suffices ∀ A B, p.a.out <+: A → p.b.out <+: B → (receives p.b.trace).take 2 <+: A → (receives p.a.trace).take 2 <+: B →
      (Undisturbed Ea.mode p.a ∧ Still Ea p.a.trace) ∧ Undisturbed Eb.mode p.b ∧ Still Eb p.b.trace from
    this _ _ (List.prefix_refl _) (List.prefix_refl _) ho.1 ho.2
  clear ho
  unfold Link.Reachable at h
  generalize hi : Link.init Ea Eb = i at h
  induction h with
  | refl =>
    subst hi
    intro A B _ _ _ _
    refine ⟨⟨undisturbed_of ha ?_, hqa, ?_⟩, undisturbed_of hb ?_, hqb, ?_⟩
    · intro i raw hi; cases hi
    · intro b hb; exact (List.not_mem_nil hb).elim
    · intro i raw hi; cases hi
    · intro b hb; exact (List.not_mem_nil hb).elim
  | @tail p q hst hstep ih =>
    subst hi
    have hp : Link.Reachable Ea Eb p := hst
    have hq : Link.Reachable Ea Eb q := hst.tail hstep
    intro A B hA hB hoA hoB
    cases hstep with
    | @a a' h1 =>
      obtain ⟨g1, g2⟩ := growth h1.1
      have ih := ih (Peaceful.before h1.1 ha) hb A B (g1.trans hA) hB hoA (take_prefix hoB g2)
      exact ⟨over hq.flip hEb hMb ih.2 hb ha hqa hB hoB, ih.2⟩
    | @b b' h1 =>
      obtain ⟨g1, g2⟩ := growth h1.1
      have ih := ih ha (Peaceful.before h1.1 hb) A B hA (g1.trans hB) (take_prefix hoA g2) hoB
      exact ⟨ih.1, over hq hEa hMa ih.1 ha hb hqb hA hoA⟩
    | toB h1 h2 =>
      have ih := ih ha ⟨hb.1, hb.2, hb.3, hb.4⟩ A B hA hB hoA hoB
      exact ⟨ih.1, ⟨ih.2.1.1, ih.2.1.2, ih.2.1.3, ih.2.1.4⟩, ih.2.2⟩
    | toA h1 h2 =>
      have ih := ih ⟨ha.1, ha.2, ha.3, ha.4⟩ hb A B hA hB hoA hoB
      exact ⟨⟨⟨ih.1.1.1, ih.1.1.2, ih.1.1.3, ih.1.1.4⟩, ih.1.2⟩, ih.2⟩

end M3.Conn.Calm
