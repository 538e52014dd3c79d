import Verif.Props.Conn.Mirror

/- A client that is active and is then locked out by its gateway: C125. -/

set_option autoImplicit false
set_option linter.unusedSimpArgs false

namespace M3.Spec

open M3.Conn

/-- A peer that lets the client become active, then takes it out of service without being asked (RFC 4666, 4.3.4.2 and 4.3.4.4), and from then on answers every request with an
Error message. -/
structure Locker where
  upAck : List UInt8
  activeAck : List UInt8
  release : List UInt8
  refusal : List UInt8

namespace Locker

/-- The messages are what they are called, and fit into the buffer. It is ASP Inactive Ack or ASP Down Ack that takes the client out of service. -/
structure Proper (g : Locker) : Prop where
  upAck : meaning g.upAck = some .aspUpAck
  activeAck : meaning g.activeAck = some .aspActiveAck
  release : meaning g.release = some .aspInactiveAck ∨ meaning g.release = some .aspDownAck
  refusal : meaning g.refusal = some .error
  short : ∀ d ∈ [g.upAck, g.activeAck, g.release, g.refusal], d.length ≤ 1500

/-- What it has sent after `k` requests: the second is acknowledged, and at some time after that the client is taken out of service. -/
def replies (g : Locker) : Nat → List (List UInt8)
  | 0 => []
  | 1 => [g.upAck]
  | k + 2 => [g.upAck, g.activeAck, g.release] ++ List.replicate k g.refusal

end Locker

/-- How many requests were sent: ASP Up and ASP Active. -/
def requestsIn (l : List Rec) : Nat := ((sends l).map Sent.bytes).countP isRequest

/-- Whatever the connection has received is what the peer has sent until then, in that order. -/
def Locker.Feeds (g : Locker) (l : List Rec) : Prop :=
  ∀ l₁ x l₂ raw, l = l₁ ++ x :: l₂ → received? x.ev = some raw → receives l₁ ++ [raw] <+: g.replies (requestsIn l₁)

/-- The request that the client repeats: ASP Active after ASP Inactive Ack, ASP Up after ASP Down Ack. -/
def Locker.repeated (g : Locker) (c : Config) : List UInt8 := if meaning g.release = some .aspInactiveAck then activeOf c else upOf c

end M3.Spec

namespace M3.Conn

open Spec

namespace Lock3

theorem own {l : List Rec} (hu : leavesAlone l) : requestsIn l = (answered l).countP isRequest := by
  induction l with
  | nil => rfl
  | cons x l ih =>
    have ih := ih fun y hy => hu y (.tail _ hy)
    have h2 := hu x (.head _)
    rw [requestsIn, answered, ownSends, sends] at ih ⊢
    rw [sends] at ih ⊢
    rw [List.filterMap_cons]
    cases hg : ofUser x.gor <;> cases hs : sent? x.ev with
    | none => simpa [List.filter_cons, hg, hs, List.filterMap_cons] using ih
    | some s =>
      first
      | have ha : isRequest s.bytes = false := by
          have := h2 hg s hs
          simp [isRequest, this.1, this.2]
        simpa [List.filter_cons, hg, hs, List.filterMap_cons, ha] using ih
      | cases hb : isBeat s.bytes with
        | false => simpa [List.filter_cons, hg, hs, List.filterMap_cons, hb, List.countP_cons] using ih
        | true =>
          have : octets s.bytes = (3, 3) := by simpa [isBeat] using hb
          have ha : isRequest s.bytes = false := by simp [isRequest, this]
          simpa [List.filter_cons, hg, hs, List.filterMap_cons, hb, ha, List.countP_cons] using ih

/-- The kinds of all it sends. -/
def kindsOf (g : Locker) (n : Nat) : List Kind :=
  .aspUpAck :: .aspActiveAck :: (if meaning g.release = some .aspInactiveAck then .aspInactiveAck else .aspDownAck) :: List.replicate n .error

theorem full_kinds {g : Locker} (hg : g.Proper) (n : Nat) : (g.replies (n + 2)).map meaning = (kindsOf g n).map some := by
  rw [Locker.replies, kindsOf]
  rcases hg.release with h | h <;> simp [hg.upAck, hg.activeAck, hg.refusal, h]

theorem tame_of (g : Locker) (n : Nat) : ∀ k ∈ kindsOf g n, k ∈ Mirror.tame := by
  intro k hk
  rw [kindsOf] at hk
  simp only [List.mem_cons] at hk
  rcases hk with rfl | rfl | hk | hk
  · decide
  · decide
  · rw [hk]; split <;> decide
  · rw [List.eq_of_mem_replicate hk]; decide

theorem talk_errors (c : Config) (s : St) (n : Nat) : Mirror.talk c s (List.replicate n .error) = (List.replicate n (request c .client s).toList).flatten ∧
    (List.replicate n Kind.error).foldl (fun s k => (commands k).getD s) s = s := by
  induction n with
  | zero => exact ⟨rfl, rfl⟩
  | succ n ih =>
    rw [List.replicate_succ, Mirror.talk, List.foldl_cons, List.replicate_succ, List.flatten_cons]
    exact ⟨by simp [commands, expected, ack, ih.1], ih.2⟩

/-- What is sent in the course of receiving all that. -/
def said (g : Locker) (c : Config) (n : Nat) : List Bytes :=
  [upOf c, activeOf c] ++ (if meaning g.release = some .aspInactiveAck then [] else [unexpectedOf c]) ++ List.replicate (n + 1) (g.repeated c)

theorem transcript_full {g : Locker} (hg : g.Proper) (c : Config) (bytes : M3UA → Bytes) (n : Nat) :
    transcript c bytes .client (g.replies (n + 2)) = said g c n ∧ stateAfter (g.replies (n + 2)) ≠ .active := by
  obtain ⟨h1, h2⟩ := Mirror.dialogue_talk c bytes _ _ .down (full_kinds hg n) (tame_of g n)
  rw [transcript, stateAfter, h1, h2, kindsOf, said, Locker.repeated]
  by_cases h : meaning g.release = some .aspInactiveAck
  · have := talk_errors c .inactive n
    simp only [h, if_true, Mirror.talk, List.foldl_cons, commands, Option.getD_some, this.1, this.2, request, Option.toList_some, Realized.flatten_singles]
    exact ⟨rfl, fun ha => by have h3 := this.2.symm.trans ha; cases h3⟩
  · have := talk_errors c .down n
    simp only [h, if_false, Mirror.talk, List.foldl_cons, commands, Option.getD_some, this.1, this.2, request, Option.toList_some, Realized.flatten_singles]
    exact ⟨rfl, fun ha => by have h3 := this.2.symm.trans ha; cases h3⟩

theorem replies_length (g : Locker) (k : Nat) : (g.replies (k + 2)).length = k + 3 := by simp [Locker.replies]

theorem replies_mono (g : Locker) {a b : Nat} (h : a ≤ b) : g.replies a <+: g.replies b := by
  match a, b, h with
  | 0, _, _ => exact List.nil_prefix
  | 1, 1, _ => exact List.prefix_refl _
  | 1, b + 2, _ => exact ⟨_, rfl⟩
  | a + 2, b + 2, h =>
    rw [Locker.replies, Locker.replies, show b = a + (b - a) by omega, ← List.replicate_append_replicate, ← List.append_assoc]
    exact List.prefix_append _ _

theorem replies_mild {g : Locker} (hg : g.Proper) {k : Nat} {raw : Bytes} (h : raw ∈ g.replies k) : Mild raw := by
  have h : raw ∈ g.replies (k + 2) := (replies_mono g (by omega)).subset h
  have hk : ∃ t, meaning raw = some t ∧ t ∈ Mirror.tame := by
    have : meaning raw ∈ (kindsOf g k).map some := full_kinds hg k ▸ List.mem_map_of_mem h
    obtain ⟨t, h1, h2⟩ := List.mem_map.mp this
    exact ⟨t, h2.symm, tame_of g k t h1⟩
  obtain ⟨t, h1, h2⟩ := hk
  refine ⟨hg.short raw ?_, fun hu => ?_, ?_, ?_⟩
  · rw [Locker.replies] at h
    simp only [List.mem_append, List.mem_cons, List.not_mem_nil, or_false, List.mem_replicate] at h ⊢
    rcases h with (h | h | h) | ⟨-, h⟩ <;> simp [h]
  · obtain ⟨m, hp, -⟩ := meaning_parse h1
    exact hu m hp (meaning_version h1)
  · rw [h1]
    rintro ⟨⟩
    exact absurd h2 (by decide)
  · rw [h1]
    rintro ⟨⟩
    exact absurd h2 (by decide)

/-- The first three, one after the other. -/
theorem short_cases {g : Locker} {rs : List Bytes} {N : Nat} (h : rs <+: g.replies (N + 2)) :
    rs = [] ∨ rs = [g.upAck] ∨ rs = [g.upAck, g.activeAck] ∨ ∃ n, n ≤ N ∧ rs = g.replies (n + 2) := by
  have ht := List.prefix_iff_eq_take.mp h
  have hl := h.length_le
  rw [replies_length] at hl
  match hn : rs.length with
  | 0 => exact .inl (List.length_eq_zero_iff.mp hn)
  | 1 => rw [hn] at ht; exact .inr (.inl ht)
  | 2 => rw [hn] at ht; exact .inr (.inr (.inl ht))
  | n + 3 =>
    refine .inr (.inr (.inr ⟨n, by omega, ?_⟩))
    have h2 := List.prefix_iff_eq_take.mp (replies_mono g (show n + 2 ≤ N + 2 by omega))
    rw [replies_length] at h2
    rw [ht, hn, h2]

theorem transcript_short {g : Locker} (hg : g.Proper) (c : Config) (bytes : M3UA → Bytes) :
    transcript c bytes .client [g.upAck] = [upOf c, activeOf c] ∧ transcript c bytes .client [g.upAck, g.activeAck] = [upOf c, activeOf c] ∧
    stateAfter [g.upAck, g.activeAck] = .active := by
  have h1 := (Mirror.dialogue_talk c bytes [g.upAck] [.aspUpAck] .down (by simp [hg.upAck]) (by decide)).1
  have h2 := Mirror.dialogue_talk c bytes [g.upAck, g.activeAck] [.aspUpAck, .aspActiveAck] .down (by simp [hg.upAck, hg.activeAck]) (by decide)
  refine ⟨?_, ?_, ?_⟩
  · rw [transcript, h1]; rfl
  · rw [transcript, h2.1]; rfl
  · rw [stateAfter, h2.2]; rfl

theorem said_requests (g : Locker) (c : Config) (n : Nat) : (said g c n).countP isRequest = n + 3 := by
  have h1 : isRequest (upOf c) = true := rfl
  have h2 : isRequest (activeOf c) = true := rfl
  have h3 : isRequest (unexpectedOf c) = false := rfl
  have h4 : isRequest (g.repeated c) = true := by rw [Locker.repeated]; split <;> rfl
  rw [said]
  split <;> simp [List.countP_append, List.countP_cons, List.countP_replicate, h1, h2, h3, h4] <;> omega

/-- There is always more to come. -/
theorem ahead {g : Locker} (hg : g.Proper) (c : Config) (bytes : M3UA → Bytes) {rs : List Bytes} {N : Nat} (h : rs <+: g.replies (N + 2)) :
    rs.length < (g.replies ((transcript c bytes .client rs).countP isRequest)).length := by
  obtain ⟨t1, t2, -⟩ := transcript_short hg c bytes
  rcases short_cases h with rfl | rfl | rfl | ⟨n, -, rfl⟩
  · exact Nat.zero_lt_one
  · rw [t1, show [upOf c, activeOf c].countP isRequest = 2 from rfl, replies_length]; simp
  · rw [t2, show [upOf c, activeOf c].countP isRequest = 2 from rfl, replies_length]; simp
  · rw [(transcript_full hg c bytes n).1, said_requests, replies_length, show n + 3 = n + 1 + 2 from rfl, replies_length]; omega

theorem within {g : Locker} {w : World} (hf : g.Feeds w.trace) : ∃ N, receives w.trace <+: g.replies (N + 2) := by
  have key : ∀ n, ∃ N, receives (w.trace.take n) <+: g.replies (N + 2) := by
    intro n
    induction n with
    | zero => exact ⟨0, List.nil_prefix⟩
    | succ n ih =>
      by_cases hn : n < w.trace.length
      · rw [List.take_succ_eq_append_getElem hn, Gate.receives_snoc]
        cases hr : received? (w.trace[n]).ev with
        | none => simpa using ih
        | some raw =>
          have hw : w.trace = w.trace.take n ++ w.trace[n] :: w.trace.drop (n + 1) := by
            rw [← List.drop_eq_getElem_cons hn, List.take_append_drop]
          exact ⟨_, (hf _ _ _ _ hw hr).trans (replies_mono g (Nat.le_add_right _ 2))⟩
      · rw [List.take_of_length_le (by omega)] at ih ⊢
        exact ih
  have := key w.trace.length
  rwa [List.take_length] at this

theorem once {g : Locker} (hg : g.Proper) (N : Nat) : Once (g.replies (N + 2)) := by
  intro a b c h1 h2 h3 _ hb hcc
  rcases short_cases (h2.trans h3) with rfl | rfl | rfl | ⟨n, -, rfl⟩
  · have := List.prefix_nil.mp h1
    subst this
    contradiction
  · have ha : stateAfter a = .active := by assumption
    have hd : stateAfter [g.upAck] = .inactive := by
      rw [stateAfter, (Mirror.dialogue_talk (Config.new 0 0 0 0 0 0) M3UA.wire [g.upAck] [.aspUpAck] .down (by simp [hg.upAck]) (by decide)).2]; rfl
    rcases List.prefix_concat_iff.mp (show a <+: [] ++ [g.upAck] from h1) with rfl | h
    · rw [List.nil_append, hd] at ha; cases ha
    · rw [List.prefix_nil.mp h] at ha; cases ha
  · exact hb (transcript_short hg (Config.new 0 0 0 0 0 0) M3UA.wire).2.2
  · rcases short_cases h3 with rfl | rfl | rfl | ⟨m, -, rfl⟩
    · have := h2.length_le; rw [replies_length] at this; simp at this
    · have := h2.length_le; rw [replies_length] at this; simp at this
    · have := h2.length_le; rw [replies_length] at this; simp at this
    · exact (transcript_full hg (Config.new 0 0 0 0 0 0) M3UA.wire m).2 hcc

end Lock3

open Lock3 in
/-- C125: whenever the client waits for a datagram and is not closed, the peer has sent or will send something more. So client and peer never rest. After the client was taken out of
service and has received `n` refusals, it has sent by itself, heartbeats aside, ASP Up, ASP Active, an Error message if it was ASP Down Ack, and `n + 1` times the same
request, and it is not AspActive. -/
theorem c125_unfinished {g : Locker} (hg : g.Proper) {E : Env} (hm : E.mode = .client) {w : World} (h : Reachable E w) (hc : ∀ x ∈ w.trace, x.ev.op ≠ .closeEst)
    (hu : leavesAlone w.trace) (hf : g.Feeds w.trace) (hw : w.at (.read 1500)) :
    (∃ raw rest, g.replies (requestsIn w.trace) = receives w.trace ++ raw :: rest) ∧
    ∀ n, receives w.trace = [g.upAck, g.activeAck, g.release] ++ List.replicate n g.refusal → w.sh.st ≠ .active ∧
      answered w.trace = [upOf E.cfg, activeOf E.cfg] ++ (if meaning g.release = some .aspInactiveAck then [] else [unexpectedOf E.cfg]) ++
        List.replicate (n + 1) (g.repeated E.cfg) := by
  obtain ⟨N, hN⟩ := within hf
  obtain ⟨i, ⟨gg, hist, p⟩, k, ht, e⟩ := hw
  simp only at e
  subst e
  have ha := c103_plain h hc (fun raw hr => by
    have := replies_mild hg (hN.subset hr)
    exact ⟨this.data, this.ack⟩) ht M3UA.encodes_wire
  rw [hm] at ha
  constructor
  · have h1 := ahead hg E.cfg M3UA.wire hN
    rw [← ha, ← own hu] at h1
    have h2 : receives w.trace <+: g.replies (requestsIn w.trace) := by
      refine List.prefix_of_prefix_length_le (hN.trans (replies_mono g (show N + 2 ≤ max (N + 2) (requestsIn w.trace) by omega)))
        (replies_mono g (by omega)) (Nat.le_of_lt h1)
    obtain ⟨t, ht⟩ := h2
    cases t with
    | nil => rw [← ht, List.append_nil] at h1; exact (Nat.lt_irrefl _ h1).elim
    | cons raw rest => exact ⟨raw, rest, ht.symm⟩
  · intro n hn
    have hn : receives w.trace = g.replies (n + 2) := hn
    have := transcript_full hg E.cfg M3UA.wire n
    exact ⟨by rw [c46_settled h hc ht, hn]; exact this.2, by rw [ha, hn, this.1]; rfl⟩

open Lock3 in
/-- C125: and nobody observes AspActive any more from then on. -/
theorem c125_lost {g : Locker} (hg : g.Proper) {E : Env} (hm : E.mode = .client) {w w' : World} (h : Reachable E w) (hc : ∀ x ∈ w.trace, x.ev.op ≠ .closeEst)
    (hu : leavesAlone w.trace) (hf : g.Feeds w.trace) (hw : w.at (.read 1500)) (hr : g.release ∈ receives w.trace) (hs : Steps E w w') :
    ∃ l, w'.trace = w.trace ++ l ∧ ∀ x ∈ l, observed? x.ev ≠ some .active := by
  obtain ⟨N, hN⟩ := within hf
  have hex : ∃ n, receives w.trace = g.replies (n + 2) := by
    have h1 : g.release ≠ g.upAck := fun he => by
      have := hg.upAck
      rw [← he] at this
      rcases hg.release with h | h <;> rw [h] at this <;> cases this
    have h2 : g.release ≠ g.activeAck := fun he => by
      have := hg.activeAck
      rw [← he] at this
      rcases hg.release with h | h <;> rw [h] at this <;> cases this
    rcases short_cases hN with h3 | h3 | h3 | ⟨n, -, h3⟩
    · rw [h3] at hr; cases hr
    · rw [h3] at hr; simp [h1] at hr
    · rw [h3] at hr; simp [h1, h2] at hr
    · exact ⟨n, h3⟩
  obtain ⟨n, hn⟩ := hex
  have hst := ((c125_unfinished hg hm h hc hu hf hw).2 n hn).1
  obtain ⟨i, ⟨gg, hist, p⟩, k, ht, e⟩ := hw
  simp only at e
  subst e
  have hp : [g.upAck, g.activeAck] <+: receives w.trace := by
    rw [hn, Locker.replies]
    exact ⟨_, rfl⟩
  obtain ⟨wa, ia, ga, na, hista, ka, hwa, hsa, hta, hra⟩ := Realized.back h ht hp
  have hca : ∀ x ∈ wa.trace, x.ev.op ≠ .closeEst := fun x hx => by
    obtain ⟨l, hl⟩ := hsa.trace
    exact hc x (by rw [hl]; exact List.mem_append_left _ hx)
  have sta : wa.sh.st = .active := by
    rw [c46_settled hwa hca hta, hra]
    exact (transcript_short hg E.cfg M3UA.wire).2.2
  have hda : decided wa.trace := by
    obtain ⟨w₁, w₂, h4, h5, h6, h7, h8⟩ := Realized.rises hwa (by simp [init]) sta
    obtain ⟨hist, k, hn⟩ := notifying h4 h5 h6 h7
    exact Realized.passed (.tail h4 h5) hn h8 hta
  obtain ⟨l, hl⟩ := hsa.trace
  exact c102_never h (by rw [hl]; exact decided.mono l hda) hst hs

open Lock3 in
/-- C125: for every such peer, every configuration and every number there is such an execution with as many refusals. -/
theorem c125_endless {g : Locker} (hg : g.Proper) (E : Env) (hm : E.mode = .client) (n : Nat) : ∃ w, Reachable E w ∧ Listening w ∧ reasons w.trace = [] ∧
    (∀ x ∈ w.trace, x.ev.op ≠ .closeEst) ∧ leavesAlone w.trace ∧ g.Feeds w.trace ∧
    receives w.trace = [g.upAck, g.activeAck, g.release] ++ List.replicate n g.refusal := by
  obtain ⟨w, h1, h2, h3, h4, -, h5, h6⟩ := c103_realized E (g.replies (n + 2)) (fun raw h => replies_mild hg h) (once hg n) M3UA.encodes_wire
  obtain ⟨-, -, hno, -⟩ := c105_open h1 h3
  have hest : ∀ x ∈ w.trace, x.ev.op ≠ .closeEst := fun x hx ho => hno x hx (.inr ho)
  have hu : leavesAlone w.trace := fun x hx ho => by rw [Gate.unattended h1 h6 hx] at ho; cases ho
  refine ⟨w, h1, h2, h3, hest, hu, fun l₁ x l₂ raw hl hr => ?_, h4⟩
  have hsub : ∀ y ∈ l₁, y ∈ w.trace := fun y hy => hl ▸ List.mem_append_left _ hy
  have hrec : receives l₁ ++ [raw] <+: g.replies (n + 2) := by
    rw [← h4, hl, show l₁ ++ x :: l₂ = l₁ ++ [x] ++ l₂ by simp, Fold.receives_append, Gate.receives_snoc, hr]
    exact List.prefix_append _ _
  have hp : receives l₁ <+: g.replies (n + 2) := (List.prefix_append _ _).trans hrec
  have hb := Gate.tight h1 hl fun raw' hr' => by
    have := replies_mild hg (hp.subset hr')
    exact ⟨this.data, this.ack⟩
  rw [own fun y hy => hu y (hsub y hy), c103_received h1 hl hr (fun y hy => hest y (hsub y hy)) hb M3UA.encodes_wire, hm]
  have h7 := ahead hg E.cfg M3UA.wire hp
  generalize (transcript E.cfg M3UA.wire .client (receives l₁)).countP isRequest = r at h7
  refine List.prefix_of_prefix_length_le (hrec.trans (replies_mono g (show n + 2 ≤ max (n + 2) r by omega))) (replies_mono g (by omega)) ?_
  rw [List.length_append, List.length_singleton]
  omega

/-- For C125: a gateway that locks the client out with ASP Down Ack and refuses it from then on because of management blocking (code 13). -/
example : let g : Locker := ⟨message 1 3 4 [], message 1 4 3 [], message 1 3 5 [], message 1 0 0 [tlv 12 (be32 13)]⟩
    g.Proper ∧ E₀.mode = .client ∧ g.repeated E₀.cfg = message 1 3 1 [] ∧ (g.replies 5).length = 6 := by
  intro g
  refine ⟨⟨by decide +kernel, by decide +kernel, .inr (by decide +kernel), by decide +kernel, by decide +kernel⟩, rfl, by decide +kernel, by decide +kernel⟩

end M3.Conn
