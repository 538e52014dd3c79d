import Verif.Props.Conn.Gateway
import Verif.Props.Conn.Early

/- A client and a signalling gateway that refuses it: C123. -/

set_option autoImplicit false
set_option linter.unusedSimpArgs false

namespace M3.Spec

open M3.Conn

/-- A peer that does not let the client become active: it answers every ASP Up with `toUp`, every ASP Active with `toActive`, and nothing else. -/
structure Denier where
  toUp : List UInt8
  toActive : List UInt8

namespace Denier

/-- ASP Active is answered with an Error message, as RFC 4666, 3.8.1, asks for if for example no application server is configured for the ASP. ASP Up is
acknowledged, or it is answered with an Error message too, as when the ASP is blocked by the management. -/
structure Proper (g : Denier) : Prop where
  up : meaning g.toUp = some .aspUpAck ∨ meaning g.toUp = some .error
  active : meaning g.toActive = some .error
  short : g.toUp.length ≤ 1500 ∧ g.toActive.length ≤ 1500

/-- What it sends in answer to a datagram. -/
def reply (g : Denier) (d : List UInt8) : List (List UInt8) :=
  if octets d = (3, 1) then [g.toUp] else if octets d = (4, 1) then [g.toActive] else []

/-- Whatever the connection has received is what the peer has sent in answer to what it was sent before, in that order. -/
def Feeds (g : Denier) (l : List Rec) : Prop :=
  ∀ l₁ x l₂ raw, l = l₁ ++ x :: l₂ → received? x.ev = some raw → receives l₁ ++ [raw] <+: ((sends l₁).map Sent.bytes).flatMap g.reply

/-- Its first `n` datagrams. -/
def script (g : Denier) : Nat → List (List UInt8)
  | 0 => []
  | n + 1 => g.toUp :: List.replicate n (if meaning g.toUp = some .aspUpAck then g.toActive else g.toUp)

/-- What it is asked with, if it has sent `n` datagrams: `n + 1` requests. After ASP Up Ack all of them are ASP Active, otherwise ASP Up. -/
def asked (g : Denier) (c : Config) (n : Nat) : List (List UInt8) :=
  message 1 3 1 (presentTlvs [tv c.aspIdentifier]) :: List.replicate n
    (if meaning g.toUp = some .aspUpAck then message 1 4 1 (presentTlvs [tv c.trafficModeType, tv c.routingContexts])
     else message 1 3 1 (presentTlvs [tv c.aspIdentifier]))

end Denier

end M3.Spec

namespace M3.Conn

open Spec

namespace Deny

/-- Only what the connection sends by itself is answered. -/
theorem own (g : Denier) {l : List Rec} (hu : leavesAlone l) :
    ((sends l).map Sent.bytes).flatMap g.reply = (answered l).flatMap g.reply := by
  induction l with
  | nil => rfl
  | cons x l ih =>
    have ih := ih fun y hy => hu y (.tail _ hy)
    have h2 := hu x (.head _)
    rw [answered, ownSends, sends] at ih ⊢
    rw [sends] at ih ⊢
    rw [List.filterMap_cons]
    cases hg : ofUser x.gor <;> cases hs : sent? x.ev with
    | none => simpa [List.filter_cons, hg, hs, List.filterMap_cons] using ih
    | some s =>
      simp only [List.filter_cons, hg, hs, List.filterMap_cons, List.map_cons, List.flatMap_cons]
      simp only [Bool.false_eq_true, not_false_eq_true, decide_true, if_true, not_true, decide_false, if_false, List.filterMap_cons, hs, List.map_cons,
        List.filter_cons]
      first
      | cases hb : isBeat s.bytes with
        | false => simpa [hb] using ih
        | true =>
          have : octets s.bytes = (3, 3) := by simpa [isBeat] using hb
          have hr : g.reply s.bytes = [] := by simp [Denier.reply, this]
          rw [hr, ih]
          simp [hb]
      | have hr : g.reply s.bytes = [] := by
          have := h2 hg s hs
          simp [Denier.reply, this.1, this.2]
        rw [hr, ih]
        simp

theorem answers_error (c : Config) (bytes : M3UA → Bytes) {raw : Bytes} (h : meaning raw = some .error) (s : St) : answers c bytes s raw = [] := by
  obtain ⟨m, hp, hm⟩ := meaning_parse h
  have hv := meaning_version h
  rw [answers, hp]
  simp only [hv, hm, ne_eq, not_true, if_false]
  rfl

/-- Error messages change nothing, and each is answered with the request for the next state. -/
theorem errors (c : Config) (bytes : M3UA → Bytes) {d : Bytes} (h : meaning d = some .error) (s : St) (n : Nat) :
    dialogue c bytes .client s (List.replicate n d) = (List.replicate n (request c .client s).toList).flatten ∧
    (List.replicate n d).foldl (fun s raw => (effect raw).getD s) s = s := by
  induction n with
  | zero => exact ⟨rfl, rfl⟩
  | succ n ih =>
    have he : (effect d).getD s = s := by rw [Gate.effect_of h]; rfl
    rw [List.replicate_succ, dialogue, List.foldl_cons]
    simp only [he, ih.1, ih.2, answers_error c bytes h s, and_true, List.nil_append, List.replicate_succ, List.flatten_cons]

theorem transcript_script {g : Denier} (hg : g.Proper) (c : Config) (bytes : M3UA → Bytes) (n : Nat) :
    transcript c bytes .client (g.script n) = g.asked c n := by
  cases n with
  | zero => rfl
  | succ n =>
    rcases hg.up with h | h
    · have e1 : (effect g.toUp).getD .down = .inactive := by rw [Gate.effect_of h]; rfl
      rw [transcript, Denier.script, dialogue]
      simp only [e1, h, if_true, (errors c bytes hg.active .inactive n).1, Gate.answers_of c bytes h .down (.inl rfl), Denier.asked, List.replicate_succ,
        request, Option.toList_some, Realized.flatten_singles]
      rfl
    · have e1 : (effect g.toUp).getD .down = .down := by rw [Gate.effect_of h]; rfl
      rw [transcript, Denier.script, dialogue]
      simp only [e1, h, if_false, (errors c bytes h .down n).1, answers_error c bytes h, Denier.asked, List.replicate_succ, request, Option.toList_some,
        Realized.flatten_singles, Option.some.injEq, reduceCtorEq]
      rfl

theorem replies_to (g : Denier) (c : Config) (n : Nat) : (g.asked c n).flatMap g.reply = g.script (n + 1) := by
  have key : ∀ (d : Bytes) (k : Nat), (List.replicate k d).flatMap g.reply = (List.replicate k (g.reply d)).flatten := fun d k => by
    rw [List.flatMap_def, List.map_replicate]
  have h3 : g.reply (message 1 3 1 (presentTlvs [tv c.aspIdentifier])) = [g.toUp] := rfl
  have h4 : g.reply (message 1 4 1 (presentTlvs [tv c.trafficModeType, tv c.routingContexts])) = [g.toActive] := rfl
  rw [Denier.asked, Denier.script, List.flatMap_cons, key, h3]
  split <;> simp only [h3, h4, Realized.flatten_singles, List.singleton_append]

theorem script_length (g : Denier) (n : Nat) : (g.script n).length = n := by cases n <;> simp [Denier.script]

/-- Each datagram is an ASP Up Ack or an Error message. -/
theorem script_kind {g : Denier} (hg : g.Proper) {n : Nat} {raw : Bytes} (h : raw ∈ g.script n) :
    (meaning raw = some .aspUpAck ∨ meaning raw = some .error) ∧ raw.length ≤ 1500 := by
  cases n with
  | zero => cases h
  | succ n =>
    rcases List.mem_cons.mp h with rfl | h
    · exact ⟨hg.up, hg.short.1⟩
    · rw [List.eq_of_mem_replicate h]
      split
      · exact ⟨.inr hg.active, hg.short.2⟩
      · exact ⟨hg.up, hg.short.1⟩

theorem script_mild {g : Denier} (hg : g.Proper) {n : Nat} {raw : Bytes} (h : raw ∈ g.script n) : Mild raw := by
  obtain ⟨hk, hs⟩ := script_kind hg h
  refine ⟨hs, fun hu => ?_, ?_, ?_⟩
  · rcases hk with h1 | h1
    · obtain ⟨m, hp, -⟩ := meaning_parse h1
      exact hu m hp (meaning_version h1)
    · obtain ⟨m, hp, -⟩ := meaning_parse h1
      exact hu m hp (meaning_version h1)
  · rcases hk with h1 | h1 <;> rw [h1] <;> simp
  · rcases hk with h1 | h1 <;> rw [h1] <;> simp

theorem script_never {g : Denier} (hg : g.Proper) {n : Nat} {raw : Bytes} (h : raw ∈ g.script n) : effect raw ≠ some .active := by
  rcases (script_kind hg h).1 with h1 | h1 <;> rw [Gate.effect_of h1] <;> simp [commands]

/-- What is received is the beginning of the script, datagram by datagram. -/
theorem within {g : Denier} (hg : g.Proper) {E : Env} (hm : E.mode = .client) {w : World} (h : Reachable E w) (hc : ∀ x ∈ w.trace, x.ev.op ≠ .closeEst)
    (hu : leavesAlone w.trace) (hf : g.Feeds w.trace) : ∀ n, ∃ k, receives (w.trace.take n) = g.script k := by
  intro n
  induction n with
  | zero => exact ⟨0, rfl⟩
  | succ n ih =>
    obtain ⟨k, ih⟩ := ih
    by_cases hn : n < w.trace.length
    · rw [List.take_succ_eq_append_getElem hn, Gate.receives_snoc]
      cases hr : received? (w.trace[n]).ev with
      | none => exact ⟨k, by simpa using ih⟩
      | some raw =>
        have hl : w.trace = w.trace.take n ++ w.trace[n] :: w.trace.drop (n + 1) := by
          rw [← List.drop_eq_getElem_cons hn, List.take_append_drop]
        have hsub : ∀ x ∈ w.trace.take n, x ∈ w.trace := fun x hx => List.mem_of_mem_take hx
        have h1 := hf _ _ _ _ hl hr
        rw [own g fun x hx => hu x (hsub x hx)] at h1
        have hb := Gate.tight h hl fun raw hr => by
          have := script_mild hg (ih ▸ hr)
          exact ⟨this.data, this.ack⟩
        rw [c103_received h hl hr (fun x hx => hc x (hsub x hx)) hb M3UA.encodes_wire, hm, ih, transcript_script hg, replies_to] at h1
        refine ⟨k + 1, ?_⟩
        rw [ih]
        refine h1.eq_of_length ?_
        rw [List.length_append, script_length, script_length]; rfl
    · rw [List.take_of_length_le (by omega)] at ih ⊢
      exact ⟨k, ih⟩

end Deny

open Deny in
/-- C123: whatever the client's schedule and configuration: with such a peer, as long as the client is not closed, it receives only the peer's datagrams one after
the other, and sends by itself, heartbeats aside, one request and one more for each datagram received, the last of which may still be to come. -/
theorem c123_only {g : Denier} (hg : g.Proper) {E : Env} (hm : E.mode = .client) {w : World} (h : Reachable E w)
    (hc : ∀ x ∈ w.trace, x.ev.op ≠ .closeEst) (hu : leavesAlone w.trace) (hf : g.Feeds w.trace) :
    ∃ n, receives w.trace = g.script n ∧ answered w.trace <+: g.asked E.cfg n := by
  obtain ⟨n, hn⟩ := within hg hm h hc hu hf w.trace.length
  rw [List.take_length] at hn
  refine ⟨n, hn, ?_⟩
  obtain ⟨a, e, h1, h2, h3⟩ := c103_always h hc M3UA.encodes_wire
  have hb := loose_of_received h fun raw hr => by
    have := script_mild hg (hn ▸ hr)
    exact ⟨this.data, this.ack⟩
  have he : looseErrors E.cfg M3UA.wire w.trace = [] := by
    rw [looseErrors, List.filter_eq_nil_iff.mpr fun x hx => by simp [hb x hx]]; rfl
  rw [he] at h2
  rw [List.prefix_nil.mp h2] at h3
  rw [h3.eq_left, ← transcript_script hg E.cfg M3UA.wire, ← hn]
  rwa [hm] at h1

open Deny in
/-- C123: the exchange does not end: whenever the client waits for the next datagram, it has just asked again, and the peer's answer is the only datagram under way. So
there is no point where client and peer have dealt with everything and rest. -/
theorem c123_unfinished {g : Denier} (hg : g.Proper) {E : Env} (hm : E.mode = .client) {w : World} (h : Reachable E w)
    (hc : ∀ x ∈ w.trace, x.ev.op ≠ .closeEst) (hu : leavesAlone w.trace) (hf : g.Feeds w.trace) (hw : w.at (.read 1500)) :
    ∃ raw, ((sends w.trace).map Sent.bytes).flatMap g.reply = receives w.trace ++ [raw] ∧ (raw = g.toUp ∨ raw = g.toActive) ∧
      answered w.trace = g.asked E.cfg (receives w.trace).length := by
  obtain ⟨n, hn, -⟩ := c123_only hg hm h hc hu hf
  obtain ⟨i, ⟨gg, hist, p⟩, k, ht, e⟩ := hw
  simp only at e
  subst e
  have ha := c103_plain h hc (fun raw hr => by
    have := script_mild hg (hn ▸ hr)
    exact ⟨this.data, this.ack⟩) ht M3UA.encodes_wire
  rw [hm, hn, transcript_script hg] at ha
  rw [own g hu, ha, replies_to, hn, script_length]
  cases n with
  | zero => exact ⟨g.toUp, rfl, .inl rfl, rfl⟩
  | succ n =>
    refine ⟨if meaning g.toUp = some .aspUpAck then g.toActive else g.toUp, ?_, ?_, rfl⟩
    · rw [Denier.script, Denier.script, List.replicate_succ', List.cons_append]
    · split
      · exact .inr rfl
      · exact .inl rfl

open Deny in
/-- C123: meanwhile the state is never AspActive, nobody observes AspActive, and `Dial` does not return a connection. -/
theorem c123_inactive {g : Denier} (hg : g.Proper) {E : Env} (hm : E.mode = .client) {w : World} (h : Reachable E w)
    (hc : ∀ x ∈ w.trace, x.ev.op ≠ .closeEst) (hu : leavesAlone w.trace) (hf : g.Feeds w.trace) :
    w.sh.st ≠ .active ∧ ∀ x ∈ w.trace, observed? x.ev ≠ some .active ∧ x.ev.op ≠ .opened .conn := by
  obtain ⟨n, hn, -⟩ := c123_only hg hm h hc hu hf
  have hno : ¬ activated w.trace := by
    rintro ⟨raw, h1, h2⟩
    exact script_never hg (hn ▸ h1) h2
  refine ⟨fun ha => hno ((Active.reach h).1 ha), fun x hx => ?_⟩
  obtain ⟨a, b, hab⟩ := List.append_of_mem hx
  refine ⟨fun ho => hno ?_, fun ho => hno ?_⟩
  · exact hab ▸ (c62_active h hab ho).mono _
  · exact hab ▸ (c53_opened h hab ho).mono _

theorem Deny.unclosed {E : Env} {w : World} (h : Reachable E w) (hc : ∀ x ∈ w.trace, x.ev.op ≠ .closeEst) {x : Rec} (hm : x ∈ w.trace)
    (he : x.ev = ⟨.estSelect, .closed⟩) : False := by
  obtain ⟨l₁, l₂, hl⟩ := List.append_of_mem hm
  obtain ⟨tid, g, o, r⟩ := x
  simp only at he
  cases he
  rcases h.at hl with ⟨w₀, sh', k, hist, h₀, rfl, -, he⟩ | ⟨w₀, sh', ⟨_, _, oy, ry⟩, h₀, ⟨rfl, hy⟩ | ⟨rfl, hy⟩⟩
  · cases he with
    | estClosedRecv ho =>
      obtain ⟨ss, -, hi⟩ := Est.reach h₀
      obtain ⟨x, hx, ho⟩ := hi.closed ho
      exact hc x (by rw [hl]; exact List.mem_append_left _ hx) ho
  · cases hy
  · cases hy

/-- C123: and if `Dial` returns meanwhile, it returns `ErrTimeout`, after its ten seconds. -/
theorem c123_result {g : Denier} (hg : g.Proper) {E : Env} (hm : E.mode = .client) {w : World} (h : Reachable E w)
    (hc : ∀ x ∈ w.trace, x.ev.op ≠ .closeEst) (hu : leavesAlone w.trace) (hf : g.Feeds w.trace) {x : Rec} (hx : x ∈ w.trace) {r : OpenRes}
    (ho : x.ev.op = .opened r) : r = .timeout ∧ ∃ y ∈ w.trace, y.ev = ⟨.estSelect, .timeout⟩ := by
  have hno : ¬ activated w.trace := by
    obtain ⟨n, hn, -⟩ := c123_only hg hm h hc hu hf
    rintro ⟨raw, h1, h2⟩
    exact Deny.script_never hg (hn ▸ h1) h2
  obtain ⟨l₁, l₂, hl⟩ := List.append_of_mem hx
  obtain ⟨tid, gg, o, a⟩ := x
  simp only at ho
  subst ho
  rcases h.at hl with ⟨w₀, sh', k, hist, h₀, rfl, ht, -⟩ | ⟨w₀, sh', ⟨_, _, oy, ry⟩, h₀, ⟨rfl, hy⟩ | ⟨rfl, hy⟩⟩
  · have ht : w₀.threads[tid]? = some ⟨gg, hist, .op (.opened r) k⟩ := ht
    have hsub : ∀ x ∈ w₀.trace, x ∈ w.trace := fun x hx => by rw [hl]; exact List.mem_append_left _ hx
    obtain ⟨h1, h2⟩ := Role.pending h₀ ht
    have hg : gg = .main := by simpa [Role.role] using h2
    subst hg
    obtain ⟨p1, p2⟩ := Follows.once h₀ ht rfl rfl
    have p1 : Path (.op .estSelect _) hist (.op (.opened r) k) := p1
    rcases Path.op_iff.mp p1 with ⟨-, p3⟩ | ⟨res, h', rfl, p3⟩
    · cases p3
    · have hm : (⟨tid, .main, ⟨.estSelect, res⟩⟩ : Rec) ∈ w₀.trace := by
        have : (⟨tid, .main, ⟨.estSelect, res⟩⟩ : Rec) ∈ w₀.of tid := by rw [p2]; exact .head _
        exact (List.mem_filter.mp this).1
      cases res with
      | timeout =>
        refine ⟨?_, _, hsub _ hm, rfl⟩
        have p3 : Path (.op .sctpClose fun _ => .op (.opened .timeout) fun _ => .ret none) h' (.op (.opened r) k) := p3
        rcases Path.op_iff.mp p3 with ⟨-, p4⟩ | ⟨b, h'', -, p4⟩
        · cases p4
        · rcases Path.op_iff.mp p4 with ⟨-, p5⟩ | ⟨u, h3, -, p5⟩
          · cases p5; rfl
          · have := (Path.ret_iff.mp p5).2; cases this
      | ok =>
        exfalso
        refine hno ?_
        rw [hl]
        exact ((Active.reach h₀).2 (Early.ok_handed h₀ hm rfl)).mono _
      | closed => exact (Deny.unclosed h hc (hsub _ hm) rfl).elim
  · cases hy
  · cases hy

open Deny in
/-- C123: for every such peer, every configuration and every number there is such an execution with as many answers. -/
theorem c123_endless {g : Denier} (hg : g.Proper) (E : Env) (hm : E.mode = .client) (n : Nat) : ∃ w, Reachable E w ∧ Listening w ∧ reasons w.trace = [] ∧
    (∀ x ∈ w.trace, x.ev.op ≠ .closeEst) ∧ leavesAlone w.trace ∧ g.Feeds w.trace ∧ receives w.trace = g.script n ∧ answered w.trace = g.asked E.cfg n := by
  obtain ⟨w, h1, h2, h3, h4, -, h5, h6⟩ := c103_realized E (g.script n) (fun raw h => script_mild hg h) (Realized.once_never fun raw h => script_never hg h)
    M3UA.encodes_wire
  obtain ⟨-, -, hno, -⟩ := c105_open h1 h3
  have hest : ∀ x ∈ w.trace, x.ev.op ≠ .closeEst := fun x hx ho => hno x hx (.inr ho)
  have hu : leavesAlone w.trace := fun x hx ho => by rw [Gate.unattended h1 h6 hx] at ho; cases ho
  rw [hm, transcript_script hg] at h5
  refine ⟨w, h1, h2, h3, hest, hu, fun l₁ x l₂ raw hl hr => ?_, h4, h5⟩
  have hsub : ∀ y ∈ l₁, y ∈ w.trace := fun y hy => hl ▸ List.mem_append_left _ hy
  have hrec : receives l₁ ++ [raw] <+: g.script n := by
    rw [← h4, hl, show l₁ ++ x :: l₂ = l₁ ++ [x] ++ l₂ by simp, Fold.receives_append, Gate.receives_snoc, hr]
    exact List.prefix_append _ _
  have hb := Gate.tight h1 hl fun raw' hr' => by
    have := script_mild hg (hrec.subset (List.mem_append_left _ hr'))
    exact ⟨this.data, this.ack⟩
  rw [own g fun y hy => hu y (hsub y hy), c103_received h1 hl hr (fun y hy => hest y (hsub y hy)) hb M3UA.encodes_wire, hm]
  have key : ∀ {k n : Nat}, k ≤ n → g.script k = (g.script n).take k := by
    intro k n hk
    cases k with
    | zero => rfl
    | succ k =>
      obtain ⟨n, rfl⟩ : ∃ m, n = m + 1 := ⟨n - 1, by omega⟩
      rw [Denier.script, Denier.script, List.take_succ_cons, List.take_replicate, Nat.min_eq_left (by omega)]
  have hlen : (receives l₁).length + 1 ≤ n := by
    have := hrec.length_le
    rwa [script_length, List.length_append] at this
  have h7 : receives l₁ = g.script (receives l₁).length := by
    rw [key (Nat.le_of_succ_le hlen)]
    exact List.prefix_iff_eq_take.mp ((List.prefix_append _ _).trans hrec)
  have h8 : receives l₁ ++ [raw] = g.script ((receives l₁).length + 1) := by
    rw [key hlen]
    have := List.prefix_iff_eq_take.mp hrec
    rwa [List.length_append] at this
  rw [h8, h7, transcript_script hg, replies_to, script_length]
  exact List.prefix_refl _

/-- For C123: a gateway for which no application server is configured (code 26), and one that blocks the client (code 13). After four answers a client without optional
parameters has sent ASP Up and four ASP Actives to the first, five ASP Ups to the second. -/
example : let g : Denier := ⟨message 1 3 4 [], message 1 0 0 [tlv 12 (be32 26)]⟩
    let b : Denier := ⟨message 1 0 0 [tlv 12 (be32 13)], message 1 0 0 [tlv 12 (be32 13)]⟩
    g.Proper ∧ b.Proper ∧ E₀.mode = .client ∧
    g.script 4 = message 1 3 4 [] :: List.replicate 3 (message 1 0 0 [tlv 12 (be32 26)]) ∧
    g.asked E₀.cfg 4 = message 1 3 1 [] :: List.replicate 4 (message 1 4 1 []) ∧ b.asked E₀.cfg 4 = List.replicate 5 (message 1 3 1 []) := by
  intro g b
  refine ⟨⟨by decide +kernel, by decide +kernel, by decide +kernel⟩, ⟨by decide +kernel, by decide +kernel, by decide +kernel⟩, rfl, by decide +kernel,
    by decide +kernel, by decide +kernel⟩

end M3.Conn
