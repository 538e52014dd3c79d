import Verif.Lemmas.Conn.PulseStep
import Verif.Lemmas.Conn.CalmSent
import Verif.Spec.Duo

/- What an endpoint sends in a session with answered heartbeats: its two messages of the handshake, then what the user wants, heartbeats
and answers to heartbeats. -/

set_option autoImplicit false
set_option linter.unusedSimpArgs false

namespace M3.Conn.Pulse

open Spec
open Calm (before after full kindOf kindOf_ok entry answer okFree okDat okPkt okPktd okUpd Opens stage_active info_keep expected hand handed_exec
  stage_cases expected_kind)

/-- How many messages of the handshake were sent when `n` datagrams have been read. -/
def need (m : Mode) (n : Nat) (s : G) : Nat :=
  match m, s with
  | .client, .updd _ _ | .client, .ready => min (n + 1) 2
  | .client, _ => min n 2
  | .server, .raw _ | .server, .pkt _ => min (n - 1) 2
  | .server, _ => min n 2

/-- A step of the goroutine that sends heartbeats, or of the handler of a heartbeat. -/
def Beating (x : Rec) : Prop := x.gor = .beatLoop ∨ ∃ b, x.gor = .packet b ∧ meaning b = some .heartbeat

/-- The first `k` messages of the handshake were sent; whatever came then is from the user, a heartbeat or an answer to one. -/
def Sent (E : Env) (k : Nat) (sh : Shared) (tr : List Rec) : Prop :=
  ∃ t₁ t₂, tr = t₁ ++ t₂ ∧ (sends t₁).map (·.bytes) = (hand E).take k ∧ (∀ x ∈ t₂, ofUser x.gor = false → sends [x] = [] ∨ Beating x) ∧
    (sh.handed = false → sends t₂ = []) ∧ (sh.handed = true → 2 ≤ k)

theorem Sent.grow {E : Env} {k : Nat} {sh sh' : Shared} {tr : List Rec} (h : Sent E k sh tr) (x : Rec) (h1 : sends [x] = [])
    (h2 : sh'.handed = true → sh.handed = true ∨ 2 ≤ k) (h3 : sh'.handed = false → sh.handed = false) : Sent E k sh' (tr ++ [x]) := by
  obtain ⟨t₁, t₂, rfl, a, b, c, d⟩ := h
  refine ⟨t₁, t₂ ++ [x], by simp, a, ?_, ?_, ?_⟩
  · intro y hy hu
    rcases List.mem_append.mp hy with hy | hy
    · exact b y hy hu
    · rw [List.mem_singleton.mp hy]; exact .inl h1
  · intro h
    rw [sends_append, c (h3 h), h1]; rfl
  · intro h
    rcases h2 h with h | h
    · exact d h
    · exact h

theorem Sent.late {E : Env} {k : Nat} {sh sh' : Shared} {tr : List Rec} (h : Sent E k sh tr) (x : Rec) (h1 : ofUser x.gor = true ∨ Beating x)
    (h2 : sh.handed = true) (h3 : sh'.handed = sh.handed) : Sent E k sh' (tr ++ [x]) := by
  obtain ⟨t₁, t₂, rfl, a, b, c, d⟩ := h
  refine ⟨t₁, t₂ ++ [x], by simp, a, ?_, ?_, ?_⟩
  · intro y hy hu
    rcases List.mem_append.mp hy with hy | hy
    · exact b y hy hu
    · rw [List.mem_singleton.mp hy] at hu ⊢
      rcases h1 with h1 | h1
      · rw [h1] at hu; cases hu
      · exact .inr h1
  · intro h; rw [h3, h2] at h; cases h
  · intro _; exact d h2

theorem Sent.own {E : Env} {k : Nat} {sh sh' : Shared} {tr : List Rec} (h : Sent E k sh tr) (x : Rec) {b : Bytes}
    (h1 : (sends [x]).map (·.bytes) = [b]) (h2 : sh.handed = false) (h3 : sh'.handed = false) (h4 : (hand E)[k]? = some b) :
    Sent E (k + 1) sh' (tr ++ [x]) := by
  obtain ⟨t₁, t₂, rfl, a, -, c, d⟩ := h
  refine ⟨t₁ ++ t₂ ++ [x], [], by simp, ?_, by intro x h; (cases h), fun _ => rfl, ?_⟩
  · rw [sends_append, sends_append, c h2, List.append_nil, List.map_append, a, h1]
    rw [List.take_add_one, h4]; rfl
  · intro h; rw [h3] at h; cases h

/-- What is known when somebody can move the connection on. -/
def Told (E : Env) (sh : Shared) (tr : List Rec) (s : G) : Prop :=
  Sent E (need E.mode (receives tr).length s) sh tr ∧ ∀ k, s = .pkt k → ∃ rs b, receives tr = rs ++ [b] ∧ kindOf b = some k

structure J (E : Env) (sh : Shared) (tr : List Rec) (ss : List G) : Prop where
  free : ∀ i : Nat, ss[i]? = some .free → sh.handed = true
  cond : sh.cond = .woken → sh.handed = true
  beat : ∀ (i : Nat) (s : G), ss[i]? = some s → prep s = true ∨ s = .pulse → sh.handed = true
  sent : ∀ (i : Nat) (s : G), ss[i]? = some s → s.tok = true → Told E sh tr s

theorem kind_expected {E : Env} {sh : Shared} {tr : List Rec} (hc : Clean E.mode sh tr) {rs : List Bytes} {b : Bytes} {k : Kind}
    (hr : receives tr = rs ++ [b]) (hk : kindOf b = some k) : expectedAt E.mode rs.length b := by
  rcases hc.last hr with h | ⟨-, h⟩
  · exact h
  · simp only [kindOf, h] at hk; cases hk

/-- Goroutines of the library without the right to move the connection on do not read, and send only heartbeats. -/
theorem quiet_step {E : Env} {s : G} {o : Op} {r : Resp o} {g : Gor} (ht : s.tok = false) (hs : s ≠ .free) (ho : s ≠ .off)
    (hc : s ≠ .close) (hfit : Fits g s) (hok : ok E s o) (i : Nat) :
    (sends [⟨i, g, o, r⟩] = [] ∨ (prep s = true ∧ Beating ⟨i, g, o, r⟩)) ∧ receives [⟨i, g, o, r⟩] = [] := by
  cases s <;> first | (cases ht; done) | (exact (hs rfl).elim) | (exact (ho rfl).elim) | (exact (hc rfl).elim) | skip
  case drew d =>
    have hg : g = .beatLoop := by
      cases g with
      | api c => cases c <;> simp [Fits] at hfit
      | beatLoop => rfl
      | _ => simp [Fits, G.mon] at hfit
    refine ⟨.inr ⟨rfl, .inl hg⟩, ?_⟩
    cases o <;> first | rfl | (cases hok; done)
  all_goals first
    | (cases hok; exact ⟨.inl rfl, rfl⟩)
    | (cases hok; done)
    | (cases o <;> first | exact ⟨.inl rfl, rfl⟩ | (cases hok; done))

theorem free_step {E : Env} {o : Op} (r : Resp o) (hok : ok E .free o) (i : Nat) (g : Gor) : receives [⟨i, g, o, r⟩] = [] := by
  cases o <;> first | rfl | (cases hok; done)

/-- Who has not got the right to move the connection on does not get it by a step of his own. -/
theorem tok_next {E : Env} {s : G} {o : Op} {r : Resp o} {sh sh' : Shared} (ht : s.tok = false) (hok : ok E s o) (hx : Exec sh o r sh')
    (hcx : sh.ctxDone = false) (hs : s ≠ .off) : (next s o r).tok = false ∧ ∀ t ∈ (spawned o).map born, t.tok = false := by
  cases s <;> first | (cases ht; done) | (exact (hs rfl).elim) | skip
  all_goals first | (cases hok; done) | skip
  case free =>
    cases o <;> first | (cases hok; done) | skip
    all_goals refine ⟨?_, by intro t h; cases h⟩
    all_goals first | rfl | (cases r <;> rfl)
  case wait =>
    obtain rfl : o = .monSelect := hok
    cases hx with
    | monCtx h1 => rw [hcx] at h1; cases h1
  case boot =>
    obtain rfl : o = .spawn .heartbeat := hok
    refine ⟨rfl, ?_⟩
    intro t ht
    simp [spawned, born] at ht
    subst ht; rfl
  case close =>
    obtain rfl : o = .lock := hok
    exact ⟨rfl, by intro t h; cases h⟩
  case main =>
    obtain rfl : o = .estSelect := hok
    exact ⟨by cases r <;> rfl, by intro t h; cases h⟩
  case pulse =>
    obtain rfl : o = .ackSelect := hok
    exact ⟨by cases r <;> rfl, by intro t h; cases h⟩
  all_goals
    cases o <;> first | (cases hok; done) | skip
    all_goals refine ⟨?_, by intro t h; cases h⟩
    all_goals first | rfl | (cases r <;> rfl) | (simp only [next, G.seen]; split <;> rfl)

theorem received_same {tr : List Rec} {x : Rec} (h : receives [x] = []) : receives (tr ++ [x]) = receives tr := by
  rw [Flow.receives_append, h, List.append_nil]

/-- The step of who has the right to move the connection on. -/
theorem tok_sent {E : Env} {sh sh' : Shared} {tr : List Rec} {i : Nat} {g : Gor} {s : G} {o : Op} {r : Resp o} (ht : s.tok = true)
    (hsent : Told E sh tr s) (hf : Fact sh tr s) (hfit : Fits g s) (hok : ok E s o) (hx : Exec sh o r sh')
    (hc : Clean E.mode sh tr) (hcalm : (⟨o, r⟩ : Ev).calm = true) :
    ((next s o r).tok = true → Told E sh' (tr ++ [⟨i, g, o, r⟩]) (next s o r)) ∧
    ∀ t ∈ (spawned o).map born, t.tok = true → Told E sh' (tr ++ [⟨i, g, o, r⟩]) t := by
  have hh := handed_exec hx
  have grow : ∀ k, Sent E k sh tr → sends [(⟨i, g, o, r⟩ : Rec)] = [] → Sent E k sh' (tr ++ [⟨i, g, o, r⟩]) := fun k h1 h2 =>
    h1.grow _ h2 (fun h => .inl (hh ▸ h)) (fun h => hh ▸ h)
  have same : receives [(⟨i, g, o, r⟩ : Rec)] = [] → receives (tr ++ [⟨i, g, o, r⟩]) = receives tr := received_same
  have nosp : (spawned o).map born = [] → ∀ t ∈ (spawned o).map born, t.tok = true → Told E sh' (tr ++ [⟨i, g, o, r⟩]) t := fun h t ht => by
    rw [h] at ht; cases ht
  have keep : sends [(⟨i, g, o, r⟩ : Rec)] = [] → receives [(⟨i, g, o, r⟩ : Rec)] = [] → Told E sh' (tr ++ [⟨i, g, o, r⟩]) s := fun h1 h2 => by
    unfold Told
    rw [same h2]
    exact ⟨grow _ hsent.1 h1, hsent.2⟩
  have move : ∀ s', sends [(⟨i, g, o, r⟩ : Rec)] = [] → receives [(⟨i, g, o, r⟩ : Rec)] = [] → (∀ k, s' ≠ .pkt k) →
      need E.mode (receives tr).length s' = need E.mode (receives tr).length s → Told E sh' (tr ++ [⟨i, g, o, r⟩]) s' := fun s' h1 h2 h3 h4 => by
    unfold Told
    rw [same h2, h4]
    exact ⟨grow _ hsent.1 h1, fun k hk => (h3 k hk).elim⟩
  cases s <;> first | (cases ht; done) | skip
  case start =>
    obtain rfl : o = .sendState .down := hok
    cases hx
  case ack d =>
    cases o <;> first | (cases hok; done) | skip
    case ctxDone =>
      refine ⟨fun hn => ?_, nosp rfl⟩
      simp only [next] at hn ⊢
      split at hn
      · cases hn
      · rename_i he
        rw [if_neg he]; exact keep rfl rfl
    case state =>
      refine ⟨fun hn => ?_, nosp rfl⟩
      simp only [next, G.seen] at hn ⊢
      split at hn
      · rename_i he
        rw [if_pos he]; exact keep rfl rfl
      · cases hn
    case getBeat =>
      refine ⟨fun hn => ?_, nosp rfl⟩
      simp only [next, G.compared] at hn ⊢
      split at hn
      · rename_i he
        rw [if_pos he]
        exact move .ackc rfl rfl (fun _ h => by cases h) (by cases E.mode <;> rfl)
      · cases hn
  case ackc =>
    obtain rfl : o = .sendAck := hok
    cases hx
  case pkt k =>
    obtain ⟨⟨hb1, hb2, hb3⟩, h1, h2, h3⟩ := hf
    obtain ⟨rs, b, hr, hk⟩ := hsent.2 k rfl
    have hlen : (receives tr).length = rs.length + 1 := by rw [hr]; simp
    obtain ⟨ka, kb, kc⟩ := expected_kind (kind_expected hc hr hk) hk
    cases o <;> first | (cases hok; done) | skip
    case state =>
      refine ⟨fun hn => ?_, nosp rfl⟩
      simp only [next, G.seen] at hn ⊢
      split at hn
      · rename_i he
        rw [if_pos he]; exact keep rfl rfl
      · cases hn
    case sendState => cases hx
    case ctxDone =>
      refine ⟨fun hn => ?_, nosp rfl⟩
      simp only [next] at hn ⊢
      split at hn
      · cases hn
      · rename_i he
        rw [if_neg he]; exact keep rfl rfl
    case info => exact ⟨fun _ => keep rfl rfl, nosp rfl⟩
    case write b' st =>
      refine ⟨fun hn => ?_, nosp rfl⟩
      cases r with
      | none => cases hcalm
      | some a =>
        refine ⟨?_, fun k hk => by cases hk⟩
        rw [same rfl]
        have hok : answer E k = some b' ∨ k = .heartbeat := hok
        rcases hok with hok | rfl
        · obtain ⟨m1, m2, m3⟩ := ka _ hok
          have e1 : need E.mode (receives tr).length (.pkt k) = rs.length := by
            rw [m1, hlen]; simp only [need]; omega
          have e2 : need E.mode (receives tr).length (next (.pkt k) (.write b' st) (some a)) = rs.length + 1 := by
            rw [m1, hlen]; simp only [need, next, G.wrote, Option.isSome_some]; omega
          have e3 : sh.handed = false := by rw [h3, hlen]; simp; omega
          rw [e2]
          have hsent := hsent.1
          rw [e1] at hsent
          exact hsent.own _ rfl e3 (hh.trans e3) m3
        · have hn3 : 3 ≤ (receives tr).length := by
            rcases stage_cases ((receives tr).length - 1) with ⟨-, hb⟩ | ⟨-, hb⟩ | ⟨ha, -⟩
            · rw [← hb1] at hb; cases hb
            · rw [← hb1] at hb; cases hb
            · omega
          have hg : Beating ⟨i, g, .write b' st, some a⟩ := by
            cases g with
            | packet b0 =>
              refine .inr ⟨b0, rfl, ?_⟩
              rcases hfit with ⟨k', hk', hk0⟩ | ⟨k', hk'⟩ | ⟨d, hk'⟩ | hk' <;> cases hk'
              unfold kindOf at hk0
              split at hk0 <;> first | assumption | (cases hk0; done) | skip
              split at hk0 <;> first | (cases hk0; done) | skip
              split at hk0 <;> cases hk0
            | api c => cases c <;> simp [Fits] at hfit
            | _ => simp [Fits, G.mon] at hfit
          have e2 : need E.mode (receives tr).length (next (.pkt .heartbeat) (.write b' st) (some a)) = need E.mode (receives tr).length (.pkt .heartbeat) := by
            cases E.mode <;> simp only [need, next, G.wrote, Option.isSome_some] <;> omega
          rw [e2]
          exact hsent.1.late _ (.inr hg) (by rw [h3]; simpa using hn3) hh
    case spawn g' =>
      obtain ⟨rfl, m', rfl, hm⟩ := hok
      refine ⟨fun hn => keep rfl rfl, ?_⟩
      intro t ht
      simp [spawned, born, hm] at ht
      subst ht
      intro h; cases h
  case pktd k =>
    cases o <;> first | (cases hok; done) | skip
    case state =>
      refine ⟨fun hn => ?_, nosp rfl⟩
      simp only [next, G.seen] at hn ⊢
      split at hn
      · rename_i he
        rw [if_pos he]; exact keep rfl rfl
      · cases hn
    case sendState => cases hx
  case got s =>
    obtain rfl : o = .lock := hok
    exact ⟨fun _ => move _ rfl rfl (fun _ h => by cases h) (by cases E.mode <;> rfl), nosp rfl⟩
  case lckd s =>
    obtain rfl : o = .getSt := hok
    exact ⟨fun _ => move _ rfl rfl (fun _ h => by cases h) (by cases E.mode <;> rfl), nosp rfl⟩
  case prev s p =>
    obtain rfl : o = .putSt s := hok
    exact ⟨fun _ => move _ rfl rfl (fun _ h => by cases h) (by cases E.mode <;> rfl), nosp rfl⟩
  case upd s p =>
    obtain ⟨h1, h2, h3, h4, h5⟩ := hf
    cases o <;> first | (cases hok; done) | skip
    case sendEst => cases hx
    case broadcast => exact ⟨fun _ => keep rfl rfl, nosp rfl⟩
    case info => exact ⟨fun _ => keep rfl rfl, nosp rfl⟩
    case unlock =>
      refine ⟨fun _ => move .ready rfl rfl (fun _ h => by cases h) ?_, nosp rfl⟩
      have hok : entry E s = none := hok.1
      cases hm : E.mode with
      | server => rfl
      | client =>
        simp only [need]
        rcases stage_cases (receives tr).length with ⟨ha, hb⟩ | ⟨ha, hb⟩ | ⟨ha, hb⟩ <;> rw [← h1] at hb <;> subst hb
        · simp [entry, hm] at hok
        · simp [entry, hm] at hok
        · omega
    case write b' st =>
      refine ⟨fun hn => ?_, nosp rfl⟩
      have hok : entry E s = some b' := hok
      cases r with
      | none => cases hcalm
      | some a =>
        refine ⟨?_, fun k hk => by cases hk⟩
        rw [same rfl]
        have hsent := hsent.1
        cases hm : E.mode with
        | server => cases s <;> simp [entry, hm] at hok
        | client =>
          have hsa : s ≠ .active := by rintro rfl; cases hok
          have e3 : sh.handed = false := by rw [h4]; exact decide_eq_false fun h => hsa (h5 h)
          rcases stage_cases (receives tr).length with ⟨ha, hb⟩ | ⟨ha, hb⟩ | ⟨ha, hb⟩ <;> rw [← h1] at hb
          · rw [ha, hm] at hsent; rw [ha]
            refine hsent.own _ rfl e3 (hh.trans e3) ?_
            subst hb
            simpa [hand, entry, need, hm] using hok
          · rw [ha, hm] at hsent; rw [ha]
            refine hsent.own _ rfl e3 (hh.trans e3) ?_
            subst hb
            simpa [hand, entry, need, hm] using hok
          · exact (hsa hb).elim
  case updd s p =>
    obtain rfl : o = .unlock := hok
    exact ⟨fun _ => move .ready rfl rfl (fun _ h => by cases h) (by cases E.mode <;> rfl), nosp rfl⟩
  case ready =>
    obtain rfl : o = .read 1500 := hok
    refine ⟨fun hn => ?_, nosp rfl⟩
    have hg := grow _ hsent.1 rfl
    cases r with
    | none => cases hcalm
    | some d =>
      refine ⟨?_, fun k hk => by cases hk⟩
      have : (receives (tr ++ [⟨i, g, .read 1500, some d⟩])).length = (receives tr).length + 1 := by
        rw [Flow.receives_append, List.length_append]; rfl
      rw [this]
      cases hm : E.mode <;> rw [hm] at hg
      · exact hg
      · exact hg
  case raw b =>
    obtain rfl : o = .spawn (.packet b) := hok
    obtain ⟨⟨⟨rs, hr⟩, hd⟩, h1, h2, h3⟩ := hf
    have hg := grow _ hsent.1 rfl
    refine ⟨fun hn => (by cases hn), fun t ht _ => ?_⟩
    unfold Told
    rw [same rfl]
    rcases hc.last hr with hl | ⟨hl, hm⟩
    · obtain ⟨k, hk, -⟩ := expected hl
      simp [spawned, born, hk] at ht
      subst ht
      refine ⟨?_, fun k' hk' => by cases hk'; exact ⟨rs, b, hr, hk⟩⟩
      cases hm : E.mode <;> rw [hm] at hg <;> exact hg
    · obtain ⟨-, d, -, hd'⟩ := hd hm
      have hkk : kindOf b = none := by simp only [kindOf, hm]
      simp [spawned, born, hkk, hd'] at ht
      subst ht
      have hlen : (receives tr).length = rs.length + 1 := by rw [hr]; simp
      refine ⟨?_, fun k' hk' => by cases hk'⟩
      have : need E.mode (receives tr).length (.ack d) = need E.mode (receives tr).length (.raw b) := by
        cases E.mode <;> simp only [need] <;> omega
      rw [this]; exact hg

/-- Nobody becomes a call of the user. -/
theorem free_next {s : G} {o : Op} {r : Resp o} (h : next s o r = .free) : s = .free := by
  cases o <;> simp only [next] at h
  all_goals first
    | exact h
    | (split at h <;> first | exact h | cases h)
    | skip
  all_goals cases s <;> first | rfl | (cases h; done) | (simp only [G.seen] at h; split at h <;> cases h) | (simp only [G.compared] at h; split at h <;> cases h) | skip
  all_goals cases r <;> first | (cases h; done) | (rename_i x; cases x <;> cases h)

theorem free_born {E : Env} {s : G} {o : Op} {t : G} (hok : ok E s o) (hs : s ≠ .off) (h : t ∈ (spawned o).map born) :
    t ≠ .free ∧ prep t = false ∧ t ≠ .pulse := by
  cases o <;> first | (cases h; done) | skip
  rename_i g
  simp only [spawned, List.map_cons, List.map_nil, List.mem_singleton] at h
  subst h
  cases s <;> first | (exact (hs rfl).elim) | (cases hok; done) | skip
  · cases hok
    exact ⟨(by intro h; cases h), rfl, (by intro h; cases h)⟩
  · obtain ⟨-, m, rfl, hm⟩ := hok
    simp [born, hm, prep]
  · cases hok
    simp only [born]
    split
    · exact ⟨(by intro h; cases h), rfl, (by intro h; cases h)⟩
    · split <;> exact ⟨(by intro h; cases h), rfl, (by intro h; cases h)⟩

/-- Who sends heartbeats has sent them before, or was woken. -/
theorem prep_next {E : Env} {s : G} {o : Op} {r : Resp o} {sh sh' : Shared} (hok : ok E s o) (hx : Exec sh o r sh') (hs : s ≠ .off)
    (h : prep (next s o r) = true ∨ next s o r = .pulse) : prep s = true ∨ s = .pulse ∨ sh.cond = .woken := by
  cases s <;> first | exact .inl rfl | exact .inr (.inl rfl) | (exact (hs rfl).elim) | skip
  case nap =>
    cases o <;> first | (cases hok; done) | skip
    · simp [next, prep] at h
    · cases hx with
      | waitLeave h1 => exact .inr (.inr h1)
  all_goals
    exfalso
    cases o <;> first | (cases hok; done) | skip
    all_goals simp only [next, G.seen, G.wrote, G.est, G.heard, G.lock, G.getSt, G.putSt, G.sendEst, G.unlock, G.read, G.passed, G.done, G.compared, G.told] at h
    all_goals first
      | (simp [prep] at h; done)
      | (split at h <;> simp [prep] at h; done)
      | (cases r <;> simp [prep] at h; done)
      | skip

/-- Only a broadcast wakes the goroutine that is to send heartbeats. -/
theorem cond_exec {sh sh' : Shared} {o : Op} {r : Resp o} (hx : Exec sh o r sh') (h : sh'.cond = .woken) : sh.cond = .woken ∨ o = .broadcast := by
  cases hx <;> first | exact .inl h | exact .inr rfl | (cases h; done)

theorem run_sent {E : Env} {sh sh' : Shared} {tr : List Rec} {ss : List G} {i : Nat} {g : Gor} {s : G} {o : Op} {r : Resp o} {cm cp : Nat}
    (h : Inv 1 cm cp sh tr ss) (hj : J E sh tr ss) (hs : ss[i]? = some s) (hfit : Fits g s) (hok : ok E s o) (hx : Exec sh o r sh')
    (hc : Clean E.mode sh tr) (hc' : Clean E.mode sh' (tr ++ [⟨i, g, o, r⟩])) :
    J E sh' (tr ++ [⟨i, g, o, r⟩]) (ss.set i (next s o r) ++ (spawned o).map born) := by
  have hh := handed_exec hx
  have hf := h.fact i s hs
  have hoff : s ≠ .off := by rintro rfl; exact hf.elim
  have hclose : s ≠ .close := fun e => hc'.user ⟨i, g, o, r⟩ (by simp) ((fits_user hfit hoff).2 e)
  refine ⟨fun j hj' => ?_, fun hw => ?_, fun j t hj' ht => ?_, fun j t hj' ht => ?_⟩
  · rw [hh]
    rcases mem_set_cases hs hj' with ⟨-, hn⟩ | ⟨-, hj'⟩ | hj'
    · exact hj.free i (by rw [hs, free_next hn.symm])
    · exact hj.free j hj'
    · exact ((free_born hok hoff hj').1 rfl).elim
  · rw [hh]
    rcases cond_exec hx hw with hw | rfl
    · exact hj.cond hw
    · cases s <;> first | (exact (hoff rfl).elim) | (cases hok; done) | skip
      obtain rfl := hok
      obtain ⟨h1, h2, h3, h4, h5⟩ := hf
      rw [h4]; rfl
  · rw [hh]
    rcases mem_set_cases hs hj' with ⟨-, hn⟩ | ⟨-, hj'⟩ | hj'
    · subst hn
      rcases prep_next hok hx hoff ht with h | h | h
      · exact hj.beat i s hs (.inl h)
      · exact hj.beat i s hs (.inr h)
      · exact hj.cond h
    · exact hj.beat j t hj' ht
    · obtain ⟨-, h1, h2⟩ := free_born hok hoff hj'
      rcases ht with h | h
      · rw [h1] at h; cases h
      · exact (h2 h).elim
  · cases hst : s.tok with
    | true =>
      have hu : ofUser g = false := by
        cases hg : ofUser g with
        | false => rfl
        | true => rcases (fits_user hfit hoff).1.mp hg with rfl | rfl <;> cases hst
      obtain ⟨a, b⟩ := tok_sent (i := i) (g := g) hst (hj.sent i s hs hst) hf hfit hok hx hc (hc'.calm ⟨i, g, o, r⟩ (by simp) hu)
      rcases mem_set_cases hs hj' with ⟨-, rfl⟩ | ⟨hji, hj'⟩ | hj'
      · exact a ht
      · have := tok_zero h.tok rfl (Ne.symm hji) hs hst hj'
        rw [ht] at this; cases this
      · exact b t hj' ht
    | false =>
      obtain ⟨a, b⟩ := tok_next hst hok hx hc.ctx hoff
      rcases mem_set_cases hs hj' with ⟨-, rfl⟩ | ⟨hji, hj'⟩ | hj'
      · rw [ht] at a; cases a
      · have hb := hj.sent j t hj' ht
        by_cases hfree : s = .free
        · subst hfree
          unfold Told
          rw [received_same (free_step r hok i g)]
          exact ⟨hb.1.late _ (.inl ((fits_user hfit hoff).1.mpr (.inl rfl))) (hj.free i hs) hh, hb.2⟩
        · obtain ⟨q1, q2⟩ := quiet_step (r := r) hst hfree hoff hclose hfit hok i
          unfold Told
          rw [received_same q2]
          refine ⟨?_, hb.2⟩
          rcases q1 with q1 | ⟨q1, q3⟩
          · exact hb.1.grow _ q1 (fun h => .inl (hh ▸ h)) (fun h => hh ▸ h)
          · exact hb.1.late _ (.inr q3) (hj.beat i s hs (.inl q1)) hh
      · have := b t hj'
        rw [ht] at this; cases this

theorem sync_sent {E : Env} {sh sh' : Shared} {tr : List Rec} {ss : List G} {i j : Nat} {gi gj : Gor} {si sj : G} {oi oj : Op}
    {ri : Resp oi} {rj : Resp oj} {cm cp : Nat} (h : Inv 1 cm cp sh tr ss) (hjj : J E sh tr ss) (hij : i ≠ j) (hsi : ss[i]? = some si)
    (hsj : ss[j]? = some sj) (hoi : ok E si oi) (hoj : ok E sj oj) (hx : Sync sh oi ri oj rj sh') (hc : Clean E.mode sh tr) :
    J E sh' (tr ++ [⟨i, gi, oi, ri⟩, ⟨j, gj, oj, rj⟩]) ((ss.set i (next si oi ri)).set j (next sj oj rj)) := by
  have hfi := h.fact i si hsi
  have hfj := h.fact j sj hsj
  have hio : si ≠ .off := by rintro rfl; exact hfi.elim
  have hjo : sj ≠ .off := by rintro rfl; exact hfj.elim
  have hcase : ∀ (k : Nat) (t : G), ((ss.set i (next si oi ri)).set j (next sj oj rj))[k]? = some t →
      (k = j ∧ t = next sj oj rj) ∨ (k = i ∧ t = next si oi ri) ∨ (k ≠ i ∧ k ≠ j ∧ ss[k]? = some t) := by
    intro k t hk
    have hj' : (ss.set i (next si oi ri))[j]? = some sj := by rw [getElem?_set_ne' _ hij]; exact hsj
    rw [← List.append_nil ((ss.set i (next si oi ri)).set j (next sj oj rj))] at hk
    rcases mem_set_cases hj' hk with ⟨hkj, hn⟩ | ⟨hkj, hk⟩ | hk
    · exact .inl ⟨hkj, hn⟩
    · rw [← List.append_nil (ss.set i (next si oi ri))] at hk
      rcases mem_set_cases hsi hk with ⟨hki, hn⟩ | ⟨hki, hk⟩ | hk
      · exact .inr (.inl ⟨hki, hn⟩)
      · exact .inr (.inr ⟨hki, hkj, hk⟩)
      · cases hk
    · cases hk
  have hfree : ∀ k : Nat, ((ss.set i (next si oi ri)).set j (next sj oj rj))[k]? = some .free → ss[k]? = some .free := by
    intro k hk
    rcases hcase k _ hk with ⟨rfl, hn⟩ | ⟨rfl, hn⟩ | ⟨-, -, hk⟩
    · rw [hsj, free_next hn.symm]
    · rw [hsi, free_next hn.symm]
    · exact hk
  have split2 : tr ++ [(⟨i, gi, oi, ri⟩ : Rec), ⟨j, gj, oj, rj⟩] = tr ++ [⟨i, gi, oi, ri⟩] ++ [⟨j, gj, oj, rj⟩] := by simp
  cases hx with
  | err => cases si <;> first | (cases hoi; done) | exact hfi.elim
  | ack _ =>
    cases si <;> first | (cases hoi; done) | exact hfi.elim | skip
    cases sj <;> first | (cases hoj; done) | exact hfj.elim | skip
    have hr : receives (tr ++ [(⟨i, gi, .sendAck, ()⟩ : Rec), ⟨j, gj, .ackSelect, .ack⟩]) = receives tr := by
      rw [Flow.receives_append]; exact List.append_nil _
    have hp := hjj.beat j _ hsj (.inr rfl)
    refine ⟨fun k hk => hjj.free k (hfree k hk), hjj.cond, fun _ _ _ _ => hp, fun k t hk ht => ?_⟩
    rcases hcase k t hk with ⟨-, rfl⟩ | ⟨-, rfl⟩ | ⟨hki, hkj, hk⟩
    · cases ht
    · unfold Told
      rw [hr, split2]
      refine ⟨?_, fun k hk => by cases hk⟩
      have hs := (hjj.sent i _ hsi rfl).1
      have : need E.mode (receives tr).length (next .ackc .sendAck ()) = need E.mode (receives tr).length .ackc := by cases E.mode <;> rfl
      rw [this]
      exact (hs.grow (sh' := sh) ⟨i, gi, .sendAck, ()⟩ rfl .inl id).grow ⟨j, gj, .ackSelect, .ack⟩ rfl .inl id
    · have := tok_zero h.tok rfl (Ne.symm hki) hsi rfl hk
      rw [ht] at this; cases this
  | est _ =>
    cases sj <;> first | (cases hoj; done) | exact hfj.elim | skip
    cases si <;> first | (cases hoi; done) | exact hfi.elim | skip
    rename_i s p
    obtain ⟨rfl, hp⟩ : s = .active ∧ p ≠ .active := hoi
    obtain ⟨h1, h2, h3, h4, h5⟩ := hfi
    have hs := (hjj.sent i _ hsi rfl).1
    have hn : 2 ≤ (receives tr).length := by
      rcases stage_cases (receives tr).length with ⟨ha, hb⟩ | ⟨ha, hb⟩ | ⟨ha, hb⟩
      · rw [← h1] at hb; cases hb
      · rw [← h1] at hb; cases hb
      · exact ha
    have hk : need E.mode (receives tr).length (.upd .active p) = 2 := by
      cases E.mode <;> simp only [need] <;> omega
    have hk' : need E.mode (receives tr).length (.upd .active .active) = 2 := by
      cases E.mode <;> simp only [need] <;> omega
    have hr : receives (tr ++ [(⟨i, gi, .sendEst, ()⟩ : Rec), ⟨j, gj, .estSelect, .ok⟩]) = receives tr := by
      rw [Flow.receives_append]; exact List.append_nil _
    refine ⟨fun _ _ => rfl, fun _ => rfl, fun _ _ _ _ => rfl, fun k t hk'' ht => ?_⟩
    rcases hcase k t hk'' with ⟨-, rfl⟩ | ⟨-, rfl⟩ | ⟨hki, hkj, hk''⟩
    · cases ht
    · unfold Told
      rw [hr, split2]
      refine ⟨?_, fun k hk => by cases hk⟩
      show Sent E (need E.mode (receives tr).length (.upd .active .active)) _ _
      rw [hk']
      rw [hk] at hs
      exact (hs.grow (sh' := { sh with handed := true }) ⟨i, gi, .sendEst, ()⟩ rfl (fun _ => .inr (Nat.le_refl 2)) (by intro h; cases h)).grow
        ⟨j, gj, .estSelect, .ok⟩ rfl (fun _ => .inr (Nat.le_refl 2)) (by intro h; cases h)
    · have := tok_zero h.tok rfl (Ne.symm hki) hsi rfl hk''
      rw [ht] at this; cases this
  | state =>
    cases sj <;> first | (cases hoj; done) | exact hfj.elim | skip
    rename_i s
    have key : si.tok = true ∧ next si (.sendState s) () = .over ∧ s = stageAt (receives tr).length ∧
        need E.mode (receives tr).length (.got s) = need E.mode (receives tr).length si := by
      cases si <;> first | (cases hoi; done) | exact hfi.elim | skip
      · cases hoi
        obtain ⟨h1, h2, h3, h4⟩ := hfi
        refine ⟨rfl, rfl, ?_, ?_⟩ <;> rw [h1]
        · rfl
        · cases E.mode <;> rfl
      · rename_i k
        obtain ⟨rfl, hans⟩ : s = after k ∧ answer E k = none := hoi
        obtain ⟨⟨hb, ha, hd⟩, h1, h2, h3⟩ := hfi
        obtain ⟨rs, b, hr, hk⟩ := (hjj.sent i _ hsi rfl).2 k rfl
        have hlen : (receives tr).length = rs.length + 1 := by rw [hr]; simp
        refine ⟨rfl, rfl, ha, ?_⟩
        · have := (expected_kind (kind_expected hc hr hk) hk).2.1 hans
          cases hm : E.mode with
          | client => rfl
          | server =>
            rcases this with h | h
            · rw [hm] at h; cases h
            · simp only [need]; omega
      · rename_i k
        obtain rfl : s = after k := hoi
        obtain ⟨⟨hb, ha⟩, h1, h2, h3⟩ := hfi
        refine ⟨rfl, rfl, ha, ?_⟩
        cases E.mode <;> rfl
    obtain ⟨k1, k3, k4, k5⟩ := key
    have hr : receives (tr ++ [(⟨i, gi, .sendState s, ()⟩ : Rec), ⟨j, gj, .monSelect, .state s⟩]) = receives tr := by
      rw [Flow.receives_append]; exact List.append_nil _
    have k6 : next .wait .monSelect (.state s) = .got s := by
      rw [k4]; exact heard_stage _
    refine ⟨fun k hk => hjj.free k (hfree k hk), hjj.cond, fun k t hk ht => ?_, fun k t hk'' ht => ?_⟩
    · rcases hcase k t hk with ⟨-, rfl⟩ | ⟨-, rfl⟩ | ⟨hki, hkj, hk⟩
      · rw [k6] at ht; rcases ht with ht | ht <;> cases ht
      · rw [k3] at ht; rcases ht with ht | ht <;> cases ht
      · exact hjj.beat k t hk ht
    · rcases hcase k t hk'' with ⟨-, rfl⟩ | ⟨-, rfl⟩ | ⟨hki, hkj, hk''⟩
      · rw [k6]
        unfold Told
        rw [hr, split2, k5]
        refine ⟨?_, fun k hk => by cases hk⟩
        exact ((hjj.sent i _ hsi k1).1.grow (sh' := sh) ⟨i, gi, .sendState s, ()⟩ rfl .inl id).grow ⟨j, gj, .monSelect, .state s⟩ rfl .inl id
      · rw [k3] at ht; cases ht
      · have := tok_zero h.tok rfl (Ne.symm hki) hsi k1 hk''
        rw [ht] at this; cases this

theorem J.same {E : Env} {sh sh' : Shared} {tr : List Rec} {ss : List G} (h : J E sh tr ss) (hh : sh'.handed = sh.handed)
    (hcd : sh'.cond = sh.cond) : J E sh' tr ss where
  free i hi := by rw [hh]; exact h.free i hi
  cond hi := by rw [hh]; rw [hcd] at hi; exact h.cond hi
  beat i s hi hs := by rw [hh]; exact h.beat i s hi hs
  sent i s hi hs := by
    obtain ⟨⟨t₁, t₂, a, b, c, d, e⟩, f⟩ := h.sent i s hi hs
    exact ⟨⟨t₁, t₂, a, b, c, by rw [hh]; exact d, by rw [hh]; exact e⟩, f⟩

end M3.Conn.Pulse
