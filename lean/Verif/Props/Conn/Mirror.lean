import Verif.Props.Conn.Denial
import Verif.Props.Conn.BeatData

/- A client whose peer sends everything back: C124. -/

set_option autoImplicit false
set_option linter.unusedSimpArgs false

namespace M3.Spec

open M3.Conn

/-- The peer sends back what it gets, in that order. -/
def Mirrors (l : List Rec) : Prop :=
  ∀ l₁ x l₂ raw, l = l₁ ++ x :: l₂ → received? x.ev = some raw → receives l₁ ++ [raw] <+: (sends l₁).map Sent.bytes

/-- The user sends nothing. -/
def unused (l : List Rec) : Prop := ∀ x ∈ l, ofUser x.gor = true → sent? x.ev = none

/-- The messages that a configuration makes: ASP Up, its acknowledgement, ASP Active, its acknowledgement, and the Error message "unexpected message". -/
def upOf (c : Config) : List UInt8 := message 1 3 1 (presentTlvs [tv c.aspIdentifier])
def upAckOf (c : Config) : List UInt8 := message 1 3 4 (presentTlvs [tv c.aspIdentifier])
def activeOf (c : Config) : List UInt8 := message 1 4 1 (presentTlvs [tv c.trafficModeType, tv c.routingContexts])
def activeAckOf (c : Config) : List UInt8 := message 1 4 3 (presentTlvs [tv c.trafficModeType, tv c.routingContexts])
def unexpectedOf (c : Config) : List UInt8 := message 1 0 0 (presentTlvs [some (12, be32 6), tv c.routingContexts, tv c.networkAppearance,
  some (18, be32 c.originatingPointCode.toNat)])

/-- The parameters in the configuration are such that these messages can be read. -/
structure Legible (c : Config) : Prop where
  up : meaning (upOf c) = some .aspUp
  upAck : meaning (upAckOf c) = some .aspUpAck
  active : meaning (activeOf c) = some .aspActive
  activeAck : meaning (activeAckOf c) = some .aspActiveAck
  unexpected : meaning (unexpectedOf c) = some .error
  short : ∀ d ∈ [upOf c, upAckOf c, activeOf c, activeAckOf c, unexpectedOf c], d.length ≤ 1500

/-- What a client says to itself. -/
def soliloquy (c : Config) : List (List UInt8) :=
  [upOf c, upAckOf c, activeOf c, unexpectedOf c, activeOf c, activeAckOf c, unexpectedOf c, unexpectedOf c]

end M3.Spec

namespace M3.Conn

open Spec

namespace Mirror

/-- Signalling whose answer does not depend on its parameters. -/
def tame : List Kind := [.aspUp, .aspUpAck, .aspActive, .error, .aspActiveAck, .notify, .aspInactiveAck, .aspDownAck]

/-- The kinds of the messages of the soliloquy. -/
def kinds : List Kind := [.aspUp, .aspUpAck, .aspActive, .error, .aspActive, .aspActiveAck, .error, .error]

/-- `dialogue`, if only the kinds of the messages are known. -/
def talk (c : Config) : St → List Kind → List Bytes
  | _, [] => []
  | s, k :: ks =>
    let s' := (commands k).getD s
    (if expected k s then (ack c k).toList else [unexpectedOf c]) ++ (request c .client s').toList ++ talk c s' ks

theorem answers_kind (c : Config) (bytes : M3UA → Bytes) {raw : Bytes} {k : Kind} (h : meaning raw = some k) (s : St) (hk : k ∈ tame) :
    answers c bytes s raw = if expected k s then (ack c k).toList else [unexpectedOf c] := by
  obtain ⟨m, hp, hm⟩ := meaning_parse h
  have hv := meaning_version h
  rw [answers, hp]
  simp only [hv, hm, ne_eq, not_true, if_false]
  simp only [tame, List.mem_cons, List.not_mem_nil, or_false] at hk
  rcases hk with rfl | rfl | rfl | rfl | rfl | rfl | rfl | rfl <;> rfl

theorem dialogue_talk (c : Config) (bytes : M3UA → Bytes) : ∀ (rs : List Bytes) (ks : List Kind) (s : St), rs.map meaning = ks.map some → (∀ k ∈ ks, k ∈ tame) →
    dialogue c bytes .client s rs = talk c s ks ∧
    rs.foldl (fun s raw => (effect raw).getD s) s = ks.foldl (fun s k => (commands k).getD s) s := by
  intro rs
  induction rs with
  | nil =>
    intro ks s h _
    cases ks with
    | nil => exact ⟨rfl, rfl⟩
    | cons => cases h
  | cons raw rs ih =>
    intro ks s h hk
    cases ks with
    | nil => cases h
    | cons k ks =>
      simp only [List.map_cons, List.cons.injEq] at h
      have ih := ih ks ((commands k).getD s) h.2 fun x hx => hk x (.tail _ hx)
      rw [dialogue, talk, List.foldl_cons, List.foldl_cons, answers_kind c bytes h.1 s (hk k (.head _)), Gate.effect_of h.1]
      exact ⟨by rw [ih.1], ih.2⟩

theorem soliloquy_kinds {c : Config} (hc : Legible c) : (soliloquy c).map meaning = kinds.map some := by
  simp only [soliloquy, kinds, List.map_cons, List.map_nil, hc.up, hc.upAck, hc.active, hc.activeAck, hc.unexpected]

theorem take_kinds {c : Config} (hc : Legible c) (n : Nat) : ((soliloquy c).take n).map meaning = (kinds.take n).map some := by
  rw [List.map_take, soliloquy_kinds hc, List.map_take]

theorem transcript_take {c : Config} (hc : Legible c) (bytes : M3UA → Bytes) (n : Nat) :
    transcript c bytes .client ((soliloquy c).take n) = upOf c :: talk c .down (kinds.take n) ∧
    stateAfter ((soliloquy c).take n) = (kinds.take n).foldl (fun s k => (commands k).getD s) .down := by
  obtain ⟨h1, h2⟩ := dialogue_talk c bytes _ _ .down (take_kinds hc n) fun k hk => (by decide : ∀ k ∈ kinds, k ∈ tame) k (List.mem_of_mem_take hk)
  exact ⟨by rw [transcript, h1]; rfl, h2⟩

theorem transcript_self {c : Config} (hc : Legible c) (bytes : M3UA → Bytes) : transcript c bytes .client (soliloquy c) = soliloquy c := by
  have := (transcript_take hc bytes 8).1
  exact this

theorem soliloquy_mild {c : Config} (hc : Legible c) {raw : Bytes} (h : raw ∈ soliloquy c) : Mild raw := by
  have hk : ∃ k, meaning raw = some k ∧ k ∈ kinds := by
    have : meaning raw ∈ kinds.map some := soliloquy_kinds hc ▸ List.mem_map_of_mem h
    obtain ⟨k, h1, h2⟩ := List.mem_map.mp this
    exact ⟨k, h2.symm, h1⟩
  obtain ⟨k, h1, h2⟩ := hk
  refine ⟨hc.short raw ?_, fun hu => ?_, ?_, ?_⟩
  · simp only [soliloquy, List.mem_cons, List.not_mem_nil, or_false] at h ⊢
    rcases h with h | h | h | h | h | h | h | h <;> simp [h]
  · obtain ⟨m, hp, -⟩ := meaning_parse h1
    exact hu m hp (meaning_version h1)
  · rw [h1]
    rintro ⟨⟩
    exact absurd h2 (by decide)
  · rw [h1]
    rintro ⟨⟩
    exact absurd h2 (by decide)

theorem soliloquy_once {c : Config} (hc : Legible c) : Once (soliloquy c) := by
  refine Realized.once_of ?_
  simp only [(transcript_take hc M3UA.wire _).2]
  have : (soliloquy c).length + 1 = 9 := rfl
  rw [this]
  decide +kernel

/-- Neither the user nor the heartbeat goroutine sends anything. -/
def Quiet (l : List Rec) : Prop := ∀ x ∈ l, ∀ s, sent? x.ev = some s → ofUser x.gor = false ∧ octets s.bytes ≠ (3, 3)

/-- Without heartbeats in the configuration there are none. -/
theorem quiet_of {E : Env} (hh : E.hb.enabled = false) {w : World} (h : Reachable E w) (hu : unused w.trace) : Quiet w.trace := by
  intro x hx s hs
  have hg : ofUser x.gor = false := by
    cases hg : ofUser x.gor with
    | false => rfl
    | true => rw [hu x hx hg] at hs; cases hs
  refine ⟨hg, fun ho => ?_⟩
  obtain ⟨l₁, l₂, hl⟩ := List.append_of_mem hx
  have hb : x.gor = .beatLoop := by
    have hm := c71_sender h hx hs
    cases hg' : x.gor <;> rw [hg'] at hm hg <;> simp only [mayCarry, ho, ofUser, Bool.true_eq_false] at hm hg
    · rcases hm with hm | ⟨-, hm | hm⟩ <;> revert hm <;> decide
    · revert hm
      split <;> simp
  obtain ⟨w₀, l₃, k, hist, h₀, -, ht⟩ := h.was hl
  have := (c73_rounds h₀ ht hb).1
  rw [hh] at this
  cases this

theorem own {l : List Rec} (hq : Quiet l) : (sends l).map Sent.bytes = answered l := by
  induction l with
  | nil => rfl
  | cons x l ih =>
    have ih := ih fun y hy => hq y (.tail _ hy)
    have h2 := hq x (.head _)
    rw [answered, ownSends, sends] at ih ⊢
    rw [sends] at ih ⊢
    rw [List.filterMap_cons]
    cases hs : sent? x.ev with
    | none => cases hg : ofUser x.gor <;> simpa [List.filter_cons, hg, hs, List.filterMap_cons] using ih
    | some s =>
      obtain ⟨hg, hb⟩ := h2 s hs
      have hb : isBeat s.bytes = false := by simpa [isBeat] using hb
      simp [List.filter_cons, hg, hs, List.filterMap_cons, hb, ih]

theorem within {E : Env} (hl : Legible E.cfg) (hm : E.mode = .client) {w : World} (h : Reachable E w) (hc : ∀ x ∈ w.trace, x.ev.op ≠ .closeEst)
    (hq : Quiet w.trace) (hf : Mirrors w.trace) : receives w.trace <+: soliloquy E.cfg := by
  have key : ∀ n, receives (w.trace.take n) <+: soliloquy E.cfg := by
    intro n
    induction n with
    | zero => exact List.nil_prefix
    | succ n ih =>
      by_cases hn : n < w.trace.length
      · rw [List.take_succ_eq_append_getElem hn, Gate.receives_snoc]
        cases hr : received? (w.trace[n]).ev with
        | none => simpa using ih
        | some raw =>
          have hw : w.trace = w.trace.take n ++ w.trace[n] :: w.trace.drop (n + 1) := by
            rw [← List.drop_eq_getElem_cons hn, List.take_append_drop]
          have hsub : ∀ x ∈ w.trace.take n, x ∈ w.trace := fun x hx => List.mem_of_mem_take hx
          have h1 := hf _ _ _ _ hw hr
          rw [own fun x hx => hq x (hsub x hx)] at h1
          have hb := Gate.tight h hw fun raw hr => by
            have := soliloquy_mild hl (ih.subset hr)
            exact ⟨this.data, this.ack⟩
          rw [c103_received h hw hr (fun x hx => hc x (hsub x hx)) hb M3UA.encodes_wire, hm] at h1
          have h2 := h1.trans (Gate.transcript_prefix ih)
          rwa [transcript_self hl] at h2
      · rw [List.take_of_length_le (by omega)] at ih ⊢
        exact ih
  have := key w.trace.length
  rwa [List.take_length] at this

/-- There is always something to come before the end. -/
theorem ahead {c : Config} (hc : Legible c) (bytes : M3UA → Bytes) {rs : List Bytes} (h : rs <+: soliloquy c) (hn : rs ≠ soliloquy c) :
    rs.length < (transcript c bytes .client rs).length := by
  have ht := List.prefix_iff_eq_take.mp h
  have hlt : rs.length < 8 := by
    refine Nat.lt_of_le_of_ne h.length_le fun he => hn (h.eq_of_length he)
  rw [ht, (transcript_take hc bytes _).1, ← ht]
  generalize rs.length = n at hlt
  match n, hlt with
  | 0, _ | 1, _ | 2, _ | 3, _ | 4, _ | 5, _ | 6, _ | 7, _ =>
    simp [kinds, talk, expected, ack, request, commands]

end Mirror

open Mirror in
/-- C124: whatever the schedule: a client whose peer sends everything back receives and sends, as long as it is not closed, only the beginning of these eight messages. -/
theorem c124_only {E : Env} (hl : Legible E.cfg) (hh : E.hb.enabled = false) (hm : E.mode = .client) {w : World} (h : Reachable E w)
    (hc : ∀ x ∈ w.trace, x.ev.op ≠ .closeEst) (hu : unused w.trace) (hf : Mirrors w.trace) : receives w.trace <+: soliloquy E.cfg ∧ (sends w.trace).map Sent.bytes <+: soliloquy E.cfg := by
  have hq := quiet_of hh h hu
  have hw := within hl hm h hc hq hf
  refine ⟨hw, ?_⟩
  obtain ⟨a, e, h1, h2, h3⟩ := c103_always h hc M3UA.encodes_wire
  have hb := loose_of_received h fun raw hr => by
    have := soliloquy_mild hl (hw.subset hr)
    exact ⟨this.data, this.ack⟩
  have he : looseErrors E.cfg M3UA.wire w.trace = [] := by
    rw [looseErrors, List.filter_eq_nil_iff.mpr fun x hx => by simp [hb x hx]]; rfl
  rw [he] at h2
  rw [List.prefix_nil.mp h2] at h3
  rw [own hq, h3.eq_left, ← transcript_self hl M3UA.wire]
  rw [hm] at h1
  exact h1.trans (Gate.transcript_prefix hw)

open Mirror in
/-- C124: and when it has got everything back and waits for more, it has sent all eight, and it is AspActive. -/
theorem c124_rest {E : Env} (hl : Legible E.cfg) (hh : E.hb.enabled = false) (hm : E.mode = .client) {w : World} (h : Reachable E w)
    (hc : ∀ x ∈ w.trace, x.ev.op ≠ .closeEst) (hu : unused w.trace) (hf : Mirrors w.trace) (hw : w.at (.read 1500)) (hall : receives w.trace = (sends w.trace).map Sent.bytes) :
    receives w.trace = soliloquy E.cfg ∧ w.sh.st = .active ∧ ∃ x ∈ w.trace, x.ev = ⟨.estSelect, .ok⟩ ∨ x.ev = ⟨.estSelect, .timeout⟩ := by
  have hq := quiet_of hh h hu
  have hp := within hl hm h hc hq hf
  obtain ⟨i, ⟨gg, hist, p⟩, k, ht, e⟩ := hw
  simp only at e
  subst e
  have ha := c103_plain h hc (fun raw hr => by
    have := soliloquy_mild hl (hp.subset hr)
    exact ⟨this.data, this.ack⟩) ht M3UA.encodes_wire
  rw [own hq, ha, hm] at hall
  have hs : receives w.trace = soliloquy E.cfg := by
    apply Classical.byContradiction
    intro hn
    have := ahead hl M3UA.wire hp hn
    rw [← hall] at this
    exact Nat.lt_irrefl _ this
  have hst : w.sh.st = .active := by
    rw [c46_settled h hc ht, hs]
    exact (transcript_take hl M3UA.wire 8).2
  refine ⟨hs, hst, ?_⟩
  obtain ⟨w₁, w₂, h4, h5, h6, h7, h8⟩ := Realized.rises h (by simp [init]) hst
  obtain ⟨hist', k', hn⟩ := notifying h4 h5 h6 h7
  obtain ⟨⟨i, gg, o, r⟩, hx, ho⟩ := Realized.passed (.tail h4 h5) hn h8 ht
  simp only at ho
  subst ho
  cases r with
  | ok => exact ⟨_, hx, .inl rfl⟩
  | timeout => exact ⟨_, hx, .inr rfl⟩
  | closed => exact (Deny.unclosed h hc hx rfl).elim

open Mirror in
/-- C124: such an execution exists for every such configuration, without anything going wrong, and `Dial` is told that the connection is established. -/
theorem c124_reached (E : Env) (hl : Legible E.cfg) (hh : E.hb.enabled = false) (hm : E.mode = .client) : ∃ w, Reachable E w ∧ Listening w ∧ reasons w.trace = [] ∧
    (∀ x ∈ w.trace, x.ev.op ≠ .closeEst) ∧ unused w.trace ∧ Mirrors w.trace ∧ receives w.trace = (sends w.trace).map Sent.bytes ∧ w.sh.st = .active ∧
    ∃ x ∈ w.trace, x.ev = ⟨.estSelect, .ok⟩ := by
  obtain ⟨w, h1, h2, h3, h4, -, h5, h6⟩ := c103_realized E (soliloquy E.cfg) (fun raw h => soliloquy_mild hl h) (soliloquy_once hl) M3UA.encodes_wire
  obtain ⟨-, -, hno, -⟩ := c105_open h1 h3
  have hest : ∀ x ∈ w.trace, x.ev.op ≠ .closeEst := fun x hx ho => hno x hx (.inr ho)
  have hu : unused w.trace := fun x hx ho => by rw [Gate.unattended h1 h6 hx] at ho; cases ho
  have hq := quiet_of hh h1 hu
  rw [hm, transcript_self hl] at h5
  have hall : receives w.trace = (sends w.trace).map Sent.bytes := by rw [own hq, h5, h4]
  have hf : Mirrors w.trace := by
    intro l₁ x l₂ raw hw hr
    have hsub : ∀ y ∈ l₁, y ∈ w.trace := fun y hy => hw ▸ List.mem_append_left _ hy
    have hrec : receives l₁ ++ [raw] <+: soliloquy E.cfg := by
      rw [← h4, hw, show l₁ ++ x :: l₂ = l₁ ++ [x] ++ l₂ by simp, Fold.receives_append, Gate.receives_snoc, hr]
      exact List.prefix_append _ _
    have hp : receives l₁ <+: soliloquy E.cfg := (List.prefix_append _ _).trans hrec
    have hb := Gate.tight h1 hw fun raw' hr' => by
      have := soliloquy_mild hl (hp.subset hr')
      exact ⟨this.data, this.ack⟩
    rw [own fun y hy => hq y (hsub y hy), c103_received h1 hw hr (fun y hy => hest y (hsub y hy)) hb M3UA.encodes_wire, hm]
    have hlen := hrec.length_le
    rw [List.length_append, List.length_singleton] at hlen
    have hne : receives l₁ ≠ soliloquy E.cfg := fun he => by rw [he] at hlen; omega
    have h7 := ahead hl M3UA.wire hp hne
    have h8 := Gate.transcript_prefix (c := E.cfg) (bytes := M3UA.wire) (m := .client) hp
    rw [transcript_self hl] at h8
    exact List.prefix_of_prefix_length_le hrec h8 (by rw [List.length_append, List.length_singleton]; omega)
  obtain ⟨-, h7, x, hx, h8 | h8⟩ := c124_rest hl hh hm h1 hest hu hf h2.reads hall
  · exact ⟨w, h1, h2, h3, hest, hu, hf, hall, h7, x, hx, h8⟩
  · exact (Ended.causes_reason (Ended.reason_of hx fun a b _ => .inr (by rw [h8]; trivial)) h3).elim

/-- For C124: a configuration without optional parameters is of that kind, and heartbeats are disabled in it. The client sends, and gets back: ASP Up, ASP Up Ack, ASP Active,
Error, ASP Active, ASP Active Ack, Error, Error. -/
example : Legible E₀.cfg ∧ E₀.hb.enabled = false ∧ E₀.mode = .client ∧ (soliloquy E₀.cfg).map octets =
    [(3, 1), (3, 4), (4, 1), (0, 0), (4, 1), (4, 3), (0, 0), (0, 0)] := by
  refine ⟨⟨by decide +kernel, by decide +kernel, by decide +kernel, by decide +kernel, by decide +kernel, by decide +kernel⟩, rfl, rfl, by decide +kernel⟩

end M3.Conn
