import Verif.Props.Conn.Realized

/- A client and a signalling gateway that sends notifications, as RFC 4666 asks for: C110. -/

set_option autoImplicit false
set_option linter.unusedSimpArgs false

namespace M3.Spec

open M3.Conn

/-- A peer as RFC 4666 describes it: it answers every ASP Up with ASP Up Ack (4.3.4.1) and every ASP Active with ASP Active Ack (4.3.4.3), and it notifies the
ASP of the state of the application server after that (4.3.4.5). -/
structure Gateway where
  upAck : List UInt8
  upNotes : List (List UInt8)
  activeAck : List UInt8
  activeNotes : List (List UInt8)

namespace Gateway

/-- The messages are what they are called, and fit into the buffer. -/
structure Proper (g : Gateway) : Prop where
  upAck : meaning g.upAck = some .aspUpAck
  activeAck : meaning g.activeAck = some .aspActiveAck
  notes : ∀ d ∈ g.upNotes ++ g.activeNotes, meaning d = some .notify
  short : ∀ d ∈ g.upAck :: g.activeAck :: (g.upNotes ++ g.activeNotes), d.length ≤ 1500

/-- What the gateway sends in answer to a datagram. -/
def reply (g : Gateway) (d : List UInt8) : List (List UInt8) :=
  if octets d = (3, 1) then g.upAck :: g.upNotes else if octets d = (4, 1) then g.activeAck :: g.activeNotes else []

/-- Whatever the connection has received is what the gateway has sent in answer to what it was sent before, in that order. -/
def Feeds (g : Gateway) (l : List Rec) : Prop :=
  ∀ l₁ x l₂ raw, l = l₁ ++ x :: l₂ → received? x.ev = some raw → receives l₁ ++ [raw] <+: ((sends l₁).map Sent.bytes).flatMap g.reply

/-- All that such a gateway ever sends: one ASP Active Ack for the ASP Up Ack and one more for each notification after it. -/
def script (g : Gateway) : List (List UInt8) :=
  g.upAck :: g.upNotes ++ (List.replicate (g.upNotes.length + 1) (g.activeAck :: g.activeNotes)).flatten

end Gateway

/-- The user asks for neither ASP Up nor ASP Active. -/
def leavesAlone (l : List Rec) : Prop := ∀ x ∈ l, ofUser x.gor = true → ∀ s, sent? x.ev = some s → octets s.bytes ≠ (3, 1) ∧ octets s.bytes ≠ (4, 1)

/-- ASP Up, `n` ASP Actives, `m` Error messages with code 6 (unexpected message). -/
def insistence (c : Config) (n m : Nat) : List (List UInt8) :=
  message 1 3 1 (presentTlvs [tv c.aspIdentifier]) ::
    (List.replicate n (message 1 4 1 (presentTlvs [tv c.trafficModeType, tv c.routingContexts])) ++
      List.replicate m (message 1 0 0 (presentTlvs [some (12, be32 6), tv c.routingContexts, tv c.networkAppearance,
        some (18, be32 c.originatingPointCode.toNat)])))

end M3.Spec

namespace M3.Conn

open Spec

namespace Gate

theorem octets_message (c t : Nat) (ps : List Bytes) : octets (message 1 c t ps) = (UInt8.ofNat c, UInt8.ofNat t) := rfl

/-- Only what the connection sends by itself is answered. -/
theorem own (g : Gateway) {l : List Rec} (hu : leavesAlone l) :
    ((sends l).map Sent.bytes).flatMap g.reply = (answered l).flatMap g.reply := by
  induction l with
  | nil => rfl
  | cons x l ih =>
    have ih := ih fun y hy => hu y (.tail _ hy)
    have h2 := hu x (.head _)
    rw [answered, ownSends, sends] at ih ⊢
    rw [sends] at ih ⊢
    rw [List.filterMap_cons]
    cases hg : ofUser x.gor <;> cases hs : sent? x.ev with
    | none => simpa [List.filter_cons, hg, hs, List.filterMap_cons] using ih
    | some s =>
      simp only [List.filter_cons, hg, hs, List.filterMap_cons, List.map_cons, List.flatMap_cons]
      simp only [Bool.false_eq_true, not_false_eq_true, decide_true, if_true, not_true, decide_false, if_false, List.filterMap_cons, hs, List.map_cons,
        List.filter_cons]
      first
      | cases hb : isBeat s.bytes with
        | false => simpa [hb] using ih
        | true =>
          have : octets s.bytes = (3, 3) := by simpa [isBeat] using hb
          have hr : g.reply s.bytes = [] := by simp [Gateway.reply, this]
          rw [hr, ih]
          simp [hb]
      | have hr : g.reply s.bytes = [] := by
          have := h2 hg s hs
          simp [Gateway.reply, this.1, this.2]
        rw [hr, ih]
        simp

theorem dialogue_append (c : Config) (bytes : M3UA → Bytes) (m : Mode) (rs : List Bytes) : ∀ (s : St) (rs' : List Bytes),
    dialogue c bytes m s (rs ++ rs') = dialogue c bytes m s rs ++ dialogue c bytes m (rs.foldl (fun s raw => (effect raw).getD s) s) rs' := by
  induction rs with
  | nil => exact fun _ _ => rfl
  | cons r rs ih =>
    intro s rs'
    rw [List.cons_append, dialogue, dialogue, ih]
    simp only [List.foldl_cons, List.append_assoc]

theorem transcript_prefix {c : Config} {bytes : M3UA → Bytes} {m : Mode} {rs rs' : List Bytes} (h : rs <+: rs') :
    transcript c bytes m rs <+: transcript c bytes m rs' := by
  obtain ⟨t, rfl⟩ := h
  rw [transcript, transcript, dialogue_append, ← List.append_assoc]
  exact List.prefix_append _ _

theorem flatMap_prefix {α β : Type} {f : α → List β} {l l' : List α} (h : l <+: l') : l.flatMap f <+: l'.flatMap f := by
  obtain ⟨t, rfl⟩ := h
  rw [List.flatMap_append]
  exact List.prefix_append _ _

/-- The Error message for an unexpected message. -/
abbrev unexpected (c : Config) : Bytes := message 1 0 0 (presentTlvs [some (12, be32 6), tv c.routingContexts, tv c.networkAppearance,
  some (18, be32 c.originatingPointCode.toNat)])

theorem answers_of (c : Config) (bytes : M3UA → Bytes) {raw : Bytes} {k : Kind} (h : meaning raw = some k) (s : St)
    (hk : k = .aspUpAck ∨ k = .aspActiveAck ∨ k = .notify) :
    answers c bytes s raw = if expected k s then [] else [unexpected c] := by
  obtain ⟨m, hp, hm⟩ := meaning_parse h
  have hv := meaning_version h
  rw [answers, hp]
  simp only [hv, hm, ne_eq, not_true, if_false]
  rcases hk with rfl | rfl | rfl <;> rfl

theorem effect_of {raw : Bytes} {k : Kind} (h : meaning raw = some k) : effect raw = commands k := by rw [effect, h]; rfl

/-- Notifications in AspInactive: each is answered with ASP Active. -/
theorem notes_inactive (c : Config) (bytes : M3UA → Bytes) {ns : List Bytes} (h : ∀ d ∈ ns, meaning d = some .notify) :
    dialogue c bytes .client .inactive ns = List.replicate ns.length (message 1 4 1 (presentTlvs [tv c.trafficModeType, tv c.routingContexts])) ∧
    ns.foldl (fun s raw => (effect raw).getD s) .inactive = .inactive := by
  induction ns with
  | nil => exact ⟨rfl, rfl⟩
  | cons d ns ih =>
    have hd := h d List.mem_cons_self
    have ih := ih fun x hx => h x (List.mem_cons_of_mem _ hx)
    have he : (effect d).getD .inactive = .inactive := by rw [effect_of hd]; rfl
    rw [dialogue, List.foldl_cons]
    simp only [he, ih.1, ih.2, answers_of c bytes hd .inactive (.inr (.inr rfl)), and_true]
    rfl

/-- Notifications in AspActive are not answered. -/
theorem notes_active (c : Config) (bytes : M3UA → Bytes) {ns : List Bytes} (h : ∀ d ∈ ns, meaning d = some .notify) :
    dialogue c bytes .client .active ns = [] ∧ ns.foldl (fun s raw => (effect raw).getD s) .active = .active := by
  induction ns with
  | nil => exact ⟨rfl, rfl⟩
  | cons d ns ih =>
    have hd := h d List.mem_cons_self
    have ih := ih fun x hx => h x (List.mem_cons_of_mem _ hx)
    have he : (effect d).getD .active = .active := by rw [effect_of hd]; rfl
    rw [dialogue, List.foldl_cons]
    simp only [he, ih.1, ih.2, answers_of c bytes hd .active (.inr (.inr rfl)), and_true]
    rfl

/-- Further ASP Active Acks in AspActive are refused. -/
theorem acks_active (c : Config) (bytes : M3UA → Bytes) {a : Bytes} {ns : List Bytes} (ha : meaning a = some .aspActiveAck)
    (h : ∀ d ∈ ns, meaning d = some .notify) (n : Nat) :
    dialogue c bytes .client .active (List.replicate n (a :: ns)).flatten = List.replicate n (unexpected c) ∧
    (List.replicate n (a :: ns)).flatten.foldl (fun s raw => (effect raw).getD s) .active = .active := by
  induction n with
  | zero => exact ⟨rfl, rfl⟩
  | succ n ih =>
    have he : (effect a).getD .active = .active := by rw [effect_of ha]; rfl
    have hn := notes_active c bytes h
    rw [List.replicate_succ, List.flatten_cons, List.cons_append, dialogue, dialogue_append, List.foldl_cons, List.foldl_append]
    simp only [he, hn.1, hn.2, ih.1, ih.2, answers_of c bytes ha .active (.inr (.inl rfl)), and_true]
    rfl

theorem dialogue_script {g : Gateway} (hg : g.Proper) (c : Config) (bytes : M3UA → Bytes) :
    transcript c bytes .client (g.upAck :: g.upNotes) = insistence c (g.upNotes.length + 1) 0 ∧
    transcript c bytes .client g.script = insistence c (g.upNotes.length + 1) g.upNotes.length ∧ stateAfter g.script = .active := by
  have hu : ∀ d ∈ g.upNotes, meaning d = some .notify := fun d hd => hg.notes d (List.mem_append_left _ hd)
  have ha : ∀ d ∈ g.activeNotes, meaning d = some .notify := fun d hd => hg.notes d (List.mem_append_right _ hd)
  have e1 : (effect g.upAck).getD .down = .inactive := by rw [effect_of hg.upAck]; rfl
  have e2 : (effect g.activeAck).getD .inactive = .active := by rw [effect_of hg.activeAck]; rfl
  have n1 := notes_inactive c bytes hu
  have n2 := notes_active c bytes ha
  have n3 := acks_active c bytes hg.activeAck ha g.upNotes.length
  refine ⟨?_, ?_, ?_⟩
  · rw [transcript, dialogue]
    simp only [e1, n1.1, answers_of c bytes hg.upAck .down (.inl rfl)]
    rw [insistence, List.replicate_zero, List.append_nil, List.replicate_succ]
    rfl
  · rw [transcript, Gateway.script, List.cons_append, dialogue, dialogue_append, List.replicate_succ, List.flatten_cons, List.cons_append]
    simp only [e1, n1.1, n1.2, answers_of c bytes hg.upAck .down (.inl rfl)]
    rw [dialogue, dialogue_append]
    simp only [e2, n2.1, n2.2, n3.1, answers_of c bytes hg.activeAck .inactive (.inr (.inl rfl))]
    rw [insistence, List.replicate_succ]
    rfl
  · rw [stateAfter, Gateway.script, List.cons_append, List.foldl_cons, e1, List.foldl_append, n1.2, List.replicate_succ, List.flatten_cons, List.cons_append,
      List.foldl_cons, e2, List.foldl_append, n2.2, n3.2]

/-- What the gateway answers to all that. -/
theorem replies_to (g : Gateway) (c : Config) (n m : Nat) :
    (insistence c n m).flatMap g.reply = g.upAck :: g.upNotes ++ (List.replicate n (g.activeAck :: g.activeNotes)).flatten := by
  have h2 : g.reply (unexpected c) = [] := rfl
  have h3 : g.reply (message 1 4 1 (presentTlvs [tv c.trafficModeType, tv c.routingContexts])) = g.activeAck :: g.activeNotes := rfl
  have key : ∀ (d : Bytes) (k : Nat), (List.replicate k d).flatMap g.reply = (List.replicate k (g.reply d)).flatten := fun d k => by
    rw [List.flatMap_def, List.map_replicate]
  rw [insistence, List.flatMap_cons, List.flatMap_append, key, key, h2, h3]
  have h4 : ∀ k, (List.replicate k ([] : List Bytes)).flatten = [] := fun k => by simp
  rw [h4, List.append_nil]
  rfl

theorem script_mild {g : Gateway} (hg : g.Proper) {raw : Bytes} (h : raw ∈ g.script) : Mild raw := by
  have hk : ∃ k, meaning raw = some k ∧ (k = .aspUpAck ∨ k = .aspActiveAck ∨ k = .notify) ∧ raw.length ≤ 1500 := by
    rw [Gateway.script, List.mem_append, List.mem_cons, List.mem_flatten] at h
    rcases h with (rfl | h) | ⟨l, hl, h⟩
    · exact ⟨_, hg.upAck, .inl rfl, hg.short _ (by simp)⟩
    · exact ⟨_, hg.notes _ (by simp [h]), .inr (.inr rfl), hg.short _ (by simp [h])⟩
    · rw [List.eq_of_mem_replicate hl, List.mem_cons] at h
      rcases h with rfl | h
      · exact ⟨_, hg.activeAck, .inr (.inl rfl), hg.short _ (by simp)⟩
      · exact ⟨_, hg.notes _ (by simp [h]), .inr (.inr rfl), hg.short _ (by simp [h])⟩
  obtain ⟨k, h1, h2, h3⟩ := hk
  refine ⟨h3, fun hu => ?_, ?_, ?_⟩
  · obtain ⟨m, hp, -⟩ := meaning_parse h1
    exact hu m hp (meaning_version h1)
  · rcases h2 with rfl | rfl | rfl <;> rw [h1] <;> simp
  · rcases h2 with rfl | rfl | rfl <;> rw [h1] <;> simp

theorem script_once {g : Gateway} (hg : g.Proper) : Once g.script := by
  have he : ∀ raw ∈ g.upNotes ++ (List.replicate (g.upNotes.length + 1) (g.activeAck :: g.activeNotes)).flatten,
      effect raw = none ∨ effect raw = some .active := by
    intro raw h
    rw [List.mem_append, List.mem_flatten] at h
    rcases h with h | ⟨l, hl, h⟩
    · exact .inl (by rw [effect_of (hg.notes _ (by simp [h]))]; rfl)
    · rw [List.eq_of_mem_replicate hl, List.mem_cons] at h
      rcases h with rfl | h
      · exact .inr (by rw [effect_of hg.activeAck]; rfl)
      · exact .inl (by rw [effect_of (hg.notes _ (by simp [h]))]; rfl)
  intro a b c h1 h2 h3 ha hb
  exfalso
  have hbs := h2.trans h3
  obtain ⟨t, rfl⟩ := h1
  cases a with
  | nil => cases ha
  | cons r a =>
    have ht : ∀ raw ∈ t, effect raw = none ∨ effect raw = some .active := by
      intro raw hr
      rw [Gateway.script, List.cons_append, List.cons_append] at hbs
      exact he raw ((List.cons_prefix_cons.mp hbs).2.subset (List.mem_append_right _ hr))
    apply hb
    rw [stateAfter, List.foldl_append]
    rw [stateAfter] at ha
    rw [ha]
    clear hb h2 h3 hbs ha
    induction t with
    | nil => rfl
    | cons x t ih =>
      rw [List.foldl_cons, show (effect x).getD .active = .active by rcases ht x List.mem_cons_self with h | h <;> rw [h] <;> rfl]
      exact ih fun y hy => ht y (List.mem_cons_of_mem _ hy)

theorem receives_snoc (l : List Rec) (x : Rec) : receives (l ++ [x]) = receives l ++ (received? x.ev).toList := by
  rw [receives, List.filterMap_append, receives]
  cases h : received? x.ev <;> simp [h]

/-- `loose_of_received` for the beginning of a trace. -/
theorem tight {E : Env} {w : World} (h : Reachable E w) {l₁ l₂ : List Rec} (hl : w.trace = l₁ ++ l₂)
    (hr : ∀ raw ∈ receives l₁, meaning raw ≠ some .data ∧ meaning raw ≠ some .heartbeatAck) : ∀ x ∈ l₁, loose x = false := by
  intro x hx
  obtain ⟨a, b, rfl⟩ := List.append_of_mem hx
  have hsrc := Flow.source h (l₁ := a) (l₂ := b ++ l₂) (x := x) (by rw [hl]; simp)
  have hsub : ∀ raw ∈ receives a, raw ∈ receives (a ++ x :: b) := fun raw hraw => by
    rw [receives, List.filterMap_append]; exact List.mem_append_left _ hraw
  obtain ⟨i, g, e⟩ := x
  cases g with
  | packet raw =>
    have := (hr raw (hsub raw hsrc)).2
    simp [loose, this]
  | data m =>
    obtain ⟨raw, h1, h2, -⟩ := hsrc
    exact ((hr raw (hsub raw h1)).1 h2).elim
  | _ => rfl

/-- What the gateway has sent so far is the beginning of its script. -/
theorem within {g : Gateway} (hg : g.Proper) {E : Env} (hm : E.mode = .client) {w : World} (h : Reachable E w) (hc : ∀ x ∈ w.trace, x.ev.op ≠ .closeEst)
    (hu : leavesAlone w.trace) (hf : g.Feeds w.trace) : receives w.trace <+: g.script := by
  have key : ∀ n, receives (w.trace.take n) <+: g.script := by
    intro n
    induction n with
    | zero => exact List.nil_prefix
    | succ n ih =>
      by_cases hn : n < w.trace.length
      · rw [List.take_succ_eq_append_getElem hn, receives_snoc]
        cases hr : received? (w.trace[n]).ev with
        | none => simpa using ih
        | some raw =>
          have hl : w.trace = w.trace.take n ++ w.trace[n] :: w.trace.drop (n + 1) := by
            rw [← List.drop_eq_getElem_cons hn, List.take_append_drop]
          have hsub : ∀ x ∈ w.trace.take n, x ∈ w.trace := fun x hx => List.mem_of_mem_take hx
          have h1 := hf _ _ _ _ hl hr
          rw [own g fun x hx => hu x (hsub x hx)] at h1
          have hb := tight h hl fun raw hr => by
            have := script_mild hg (ih.subset hr)
            exact ⟨this.data, this.ack⟩
          rw [c103_received h hl hr (fun x hx => hc x (hsub x hx)) hb M3UA.encodes_wire, hm] at h1
          refine h1.trans ((flatMap_prefix (transcript_prefix ih)).trans ?_)
          rw [(dialogue_script hg _ _).2.1, replies_to]
          exact List.prefix_refl _
      · rw [List.take_of_length_le (by omega)] at ih ⊢
        exact ih
  have := key w.trace.length
  rwa [List.take_length] at this

/-- The first ASP Up is answered in any case. -/
theorem first_reply (g : Gateway) (c : Config) (rs : List Bytes) :
    g.upAck :: g.upNotes <+: (transcript c M3UA.wire .client rs).flatMap g.reply := by
  have := flatMap_prefix (f := g.reply) (transcript_prefix (c := c) (bytes := M3UA.wire) (m := .client) (rs := []) (rs' := rs) List.nil_prefix)
  have e0 : (transcript c M3UA.wire .client []).flatMap g.reply = g.upAck :: g.upNotes := by
    rw [show transcript c M3UA.wire .client [] = insistence c 0 0 from rfl, replies_to]
    simp
  rwa [e0] at this

/-- The gateway always has something more to send until all of its script is received. -/
theorem more {g : Gateway} (hg : g.Proper) (c : Config) {rs : List Bytes} {raw : Bytes} (h : rs ++ [raw] <+: g.script) :
    rs ++ [raw] <+: (transcript c M3UA.wire .client rs).flatMap g.reply := by
  have hp : rs <+: g.script := (List.prefix_append _ _).trans h
  by_cases hl : g.upAck :: g.upNotes <+: rs
  · have := flatMap_prefix (f := g.reply) (transcript_prefix (c := c) (bytes := M3UA.wire) (m := .client) hl)
    rw [(dialogue_script hg _ _).1, replies_to] at this
    exact h.trans this
  · refine List.IsPrefix.trans ?_ (first_reply g c rs)
    rcases List.prefix_or_prefix_of_prefix h (show g.upAck :: g.upNotes <+: g.script from List.prefix_append _ _) with h1 | h1
    · exact h1
    · rcases List.prefix_concat_iff.mp h1 with h2 | h2
      · exact h2 ▸ List.prefix_refl _
      · exact absurd h2 hl

/-- No step is a user's when there was no call. -/
theorem unattended {E : Env} {w : World} (h : Reachable E w) (hu : userCalls w = 0) {x : Rec} (hx : x ∈ w.trace) : ofUser x.gor = false := by
  obtain ⟨hr1, hr2⟩ := Follows.reach h
  have hi := hr1 x hx
  have ht : w.threads[x.tid]? = some w.threads[x.tid] := List.getElem?_eq_getElem hi
  generalize w.threads[x.tid] = t at ht
  have hof : x ∈ w.of x.tid := List.mem_filter.mpr ⟨hx, by simp⟩
  cases hg : x.gor with
  | api c =>
    exfalso
    obtain ⟨h1, pre, h2, h3⟩ := hr2 x.tid t ht
    rw [h2] at hof
    rcases List.mem_append.mp hof with hx' | hx'
    · exact absurd hg (h3.not_api hx')
    · obtain ⟨e, -, he⟩ := List.mem_map.mp hx'
      rw [← he] at hg
      have := List.countP_eq_zero.mp hu t.gor (List.mem_map_of_mem (List.mem_of_getElem? ht))
      simp only at hg
      rw [hg] at this
      exact this rfl
  | _ => rfl

end Gate

open Gate in
/-- C110: whatever the client's schedule and configuration: with such a gateway it receives, as long as it is not closed, only the beginning of the gateway's
script, and it sends by itself, heartbeats aside, only the beginning of this: ASP Up, one ASP Active for the ASP Up Ack and one for each notification that
follows, and an Error message for each ASP Active Ack but the first. -/
theorem c110_only {g : Gateway} (hg : g.Proper) {E : Env} (hm : E.mode = .client) {w : World} (h : Reachable E w)
    (hc : ∀ x ∈ w.trace, x.ev.op ≠ .closeEst) (hu : leavesAlone w.trace) (hf : g.Feeds w.trace) :
    receives w.trace <+: g.script ∧ answered w.trace <+: insistence E.cfg (g.upNotes.length + 1) g.upNotes.length := by
  have hw := within hg hm h hc hu hf
  refine ⟨hw, ?_⟩
  obtain ⟨a, e, h1, h2, h3⟩ := c103_always h hc M3UA.encodes_wire
  have hb := loose_of_received h fun raw hr => by
    have := script_mild hg (hw.subset hr)
    exact ⟨this.data, this.ack⟩
  have he : looseErrors E.cfg M3UA.wire w.trace = [] := by
    rw [looseErrors, List.filter_eq_nil_iff.mpr fun x hx => by simp [hb x hx]]; rfl
  rw [he] at h2
  rw [List.prefix_nil.mp h2] at h3
  rw [h3.eq_left, ← (dialogue_script hg E.cfg M3UA.wire).2.1]
  rw [hm] at h1
  exact h1.trans (transcript_prefix hw)

open Gate in
/-- C110: and when it has received everything the gateway has sent, and waits for more, it has sent all of this, and it is AspActive. With `n` notifications
after ASP Up Ack these are `n + 1` ASP Actives and `n` Error messages. -/
theorem c110_rest {g : Gateway} (hg : g.Proper) {E : Env} (hm : E.mode = .client) {w : World} (h : Reachable E w)
    (hc : ∀ x ∈ w.trace, x.ev.op ≠ .closeEst) (hu : leavesAlone w.trace) (hf : g.Feeds w.trace) (hw : w.at (.read 1500))
    (hall : receives w.trace = ((sends w.trace).map Sent.bytes).flatMap g.reply) :
    receives w.trace = g.script ∧ answered w.trace = insistence E.cfg (g.upNotes.length + 1) g.upNotes.length ∧ w.sh.st = .active := by
  have hp := within hg hm h hc hu hf
  obtain ⟨i, ⟨gg, hist, p⟩, k, ht, e⟩ := hw
  simp only at e
  subst e
  have ha := c103_plain h hc (fun raw hr => by
    have := script_mild hg (hp.subset hr)
    exact ⟨this.data, this.ack⟩) ht M3UA.encodes_wire
  rw [own g hu, ha, hm] at hall
  rw [hm] at ha
  have hs : receives w.trace = g.script := by
    generalize receives w.trace = rs at hp hall
    by_cases hl : g.upAck :: g.upNotes <+: rs
    · refine hp.eq_of_length_le ?_
      have := (flatMap_prefix (f := g.reply) (transcript_prefix (c := E.cfg) (bytes := M3UA.wire) (m := .client) hl)).length_le
      rw [← hall, (dialogue_script hg _ _).1, replies_to] at this
      exact this
    · exfalso
      have h2 := first_reply g E.cfg rs
      rw [← hall] at h2
      exact hl h2
  refine ⟨hs, by rw [ha, hs, (dialogue_script hg _ _).2.1], ?_⟩
  rw [c46_settled h hc ht, hs, (dialogue_script hg E.cfg M3UA.wire).2.2]

open Gate in
/-- C110: such an execution exists for every such gateway and every configuration: everything is received, nothing has gone wrong, the client waits for more. -/
theorem c110_reached {g : Gateway} (hg : g.Proper) (E : Env) (hm : E.mode = .client) : ∃ w, Reachable E w ∧ Listening w ∧ reasons w.trace = [] ∧
    (∀ x ∈ w.trace, x.ev.op ≠ .closeEst) ∧ leavesAlone w.trace ∧ g.Feeds w.trace ∧
    receives w.trace = ((sends w.trace).map Sent.bytes).flatMap g.reply ∧
    answered w.trace = insistence E.cfg (g.upNotes.length + 1) g.upNotes.length := by
  obtain ⟨w, h1, h2, h3, h4, -, h5, h6⟩ := c103_realized E g.script (fun raw h => script_mild hg h) (script_once hg) M3UA.encodes_wire
  obtain ⟨-, -, hno, -⟩ := c105_open h1 h3
  have hest : ∀ x ∈ w.trace, x.ev.op ≠ .closeEst := fun x hx ho => hno x hx (.inr ho)
  have hu : leavesAlone w.trace := fun x hx ho => by rw [unattended h1 h6 hx] at ho; cases ho
  rw [hm, (dialogue_script hg _ _).2.1] at h5
  refine ⟨w, h1, h2, h3, hest, hu, fun l₁ x l₂ raw hl hr => ?_, ?_, h5⟩
  · have hsub : ∀ y ∈ l₁, y ∈ w.trace := fun y hy => hl ▸ List.mem_append_left _ hy
    have hrec : receives l₁ ++ [raw] <+: g.script := by
      rw [← h4, hl, show l₁ ++ x :: l₂ = l₁ ++ [x] ++ l₂ by simp, Fold.receives_append, receives_snoc, hr]
      exact List.prefix_append _ _
    have hb := tight h1 hl fun raw' hr' => by
      have := script_mild hg (hrec.subset (List.mem_append_left _ hr'))
      exact ⟨this.data, this.ack⟩
    rw [own g fun y hy => hu y (hsub y hy), c103_received h1 hl hr (fun y hy => hest y (hsub y hy)) hb M3UA.encodes_wire, hm]
    exact more hg E.cfg hrec
  · rw [own g hu, h5, replies_to, h4]
    rfl

/-- For C110: a gateway that sends "AS inactive" and another notification after ASP Up Ack and "AS active" after ASP Active Ack. A client without optional
parameters sends ASP Up, three ASP Actives and two Error messages to it. -/
example : let g : Gateway := ⟨message 1 3 4 [], [message 1 0 1 [tlv 13 (be32 65538)], message 1 0 1 [tlv 13 (be32 131073)]], message 1 4 3 [],
      [message 1 0 1 [tlv 13 (be32 65539)]]⟩
    g.Proper ∧ E₀.mode = .client ∧ g.script.length = 9 ∧
    insistence E₀.cfg (g.upNotes.length + 1) g.upNotes.length = [message 1 3 1 [], message 1 4 1 [], message 1 4 1 [], message 1 4 1 [],
      message 1 0 0 [tlv 12 (be32 6), tlv 18 (be32 1)], message 1 0 0 [tlv 12 (be32 6), tlv 18 (be32 1)]] := by
  intro g
  refine ⟨⟨by decide +kernel, by decide +kernel, by decide +kernel, by decide +kernel⟩, rfl, by decide +kernel, by decide +kernel⟩

end M3.Conn
