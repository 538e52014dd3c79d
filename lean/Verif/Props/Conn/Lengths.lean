import Verif.Props.Conn.BeatData
import Verif.Props.Conn.EndToEnd
import Verif.Props.Conn.Errors
import Verif.Props.Conn.Handling
import Verif.Spec.Script

/- Everything that a connection sends by itself, and how long it is: C118. -/

set_option autoImplicit false
set_option linter.unusedSimpArgs false

namespace M3.Spec

open M3.Conn

/-- The datagrams that a connection may send by itself: a request for the next state, an acknowledgement, an Error message, a Heartbeat with 128 bytes, or
the acknowledgement of a Heartbeat among the datagrams `rs`. -/
inductive OwnDatagram (c : Config) (mode : Mode) (bytes : M3UA → List UInt8) (rs : List (List UInt8)) : List UInt8 → Prop where
  | request {s : St} {d : List UInt8} : request c mode s = some d → OwnDatagram c mode bytes rs d
  | ack {k : Kind} {d : List UInt8} : ack c k = some d → OwnDatagram c mode bytes rs d
  | error {e : CErr} {d : List UInt8} : errorMessage c bytes e = some d → OwnDatagram c mode bytes rs d
  | beat {d : List UInt8} : d.length = 128 → OwnDatagram c mode bytes rs (message 1 3 3 [tlv 9 d])
  | echo {raw : List UInt8} {m : M3UA} : raw ∈ rs → M3UA.parse raw = .ok m → m.kind = some .heartbeat → OwnDatagram c mode bytes rs (echo raw m)

/-- The bytes that an optional parameter takes: tag, length, value and padding. -/
def room (p : Option Param) : Nat :=
  match p with
  | none => 0
  | some p => 4 + p.data.length + pad p.data.length

/-- The longest message that is made of the configuration only. -/
def longest (c : Config) : Nat :=
  max (8 + room c.aspIdentifier) (max (8 + room c.trafficModeType + room c.routingContexts) (24 + room c.routingContexts + room c.networkAppearance))

end M3.Spec

namespace M3.Conn

open Spec

namespace Lengths

/-- What a goroutine may send by itself. -/
def Form (E : Env) (g : Gor) (_ : List Ev) (o : Op) : Prop :=
  match o with
  | .write d _ => match g with
    | .api _ => True
    | .packet raw => OwnDatagram E.cfg E.mode M3UA.wire [raw] d
    | _ => OwnDatagram E.cfg E.mode M3UA.wire [] d
  | _ => True

theorem own_reply {E : Env} {e : CErr} {m : M3UA} {rs : List Bytes} (h : reply E e = some m) : OwnDatagram E.cfg E.mode M3UA.wire rs m.wire := by
  refine .error (e := e) ?_
  rw [reply_wire E M3UA.wire M3UA.encodes_wire, h]
  rfl

theorem own_echo {c : Config} {mode : Mode} {raw : Bytes} {m : Msg.Heartbeat} (h : M3UA.parse raw = .ok (.heartbeat m)) :
    OwnDatagram c mode M3UA.wire [raw] (M3UA.heartbeat { m with header := { m.header with typ := 6 } }).wire := by
  rw [heartbeat_wire h]
  exact .echo (m := .heartbeat m) (by simp) h rfl

theorem forms (E : Env) (g : Gor) : WP (Hist (Form E g)) g (fun _ _ => True) [] (body E g) := by
  cases g with
  | monitorLoop =>
    obtain ⟨mode, cfg, hb, ms⟩ := E
    cases mode <;> wp_code [Hist.ok_eq, Hist.may_eq, Hist.next_eq, Facts.may, Form, aspUp_wire, aspActive_wire]
    · exact ⟨fun e m h _ _ => own_reply h, fun _ _ _ _ _ => .request (s := .down) rfl, fun _ _ _ _ _ => .request (s := .inactive) rfl⟩
    · exact fun e m h _ _ => own_reply h
  | packet raw =>
    rw [body, packet_eq]
    cases hp : M3UA.parse raw with
    | ok m =>
      cases m <;> wp_code [Hist.ok_eq, Hist.may_eq, Hist.next_eq, Facts.may, Form, aspUpAck_wire, aspDownAck_wire, aspActiveAck_wire, aspInactiveAck_wire]
      · exact fun _ _ _ _ _ _ _ _ _ => .ack (k := .aspUp) rfl
      · exact fun _ _ _ _ _ _ _ _ _ => .ack (k := .aspDown) rfl
      · exact fun _ _ _ _ _ _ => own_echo hp
      · exact fun _ _ _ _ _ _ => .ack (k := .aspActive) rfl
      · exact fun _ _ _ _ _ _ => .ack (k := .aspInactive) rfl
    | _ => wp_code []
  | api c =>
    cases c <;> wp_code [Hist.ok_eq, Hist.may_eq, Hist.next_eq, Form]
  | beatLoop =>
    wp_code [Hist.ok_eq, Hist.may_eq, Hist.next_eq, Facts.may, Form]
    exact fun d hd _ _ => beat_wire hd ▸ .beat hd
  | _ => wp_code [Hist.ok_eq, Hist.may_eq, Hist.next_eq, Form]

theorem more {c : Config} {mode : Mode} {bytes : M3UA → Bytes} {rs rs' : List Bytes} {d : Bytes} (h : OwnDatagram c mode bytes rs d)
    (hr : ∀ r ∈ rs, r ∈ rs') : OwnDatagram c mode bytes rs' d := by
  cases h with
  | request h => exact .request h
  | ack h => exact .ack h
  | error h => exact .error h
  | beat h => exact .beat h
  | echo h h1 h2 => exact .echo (hr _ h) h1 h2

theorem tlv_length (t : Nat) (v : Bytes) : (tlv t v).length = 4 + v.length + pad v.length := by
  simp [tlv, be16]; omega

theorem message_length (v c t : Nat) (ps : List Bytes) : (message v c t ps).length = 8 + ps.flatten.length := by
  simp [message, be32]; omega

theorem present_cons (p : Option Param) (ps : List (Option (Nat × Bytes))) :
    (presentTlvs (tv p :: ps)).flatten.length = room p + (presentTlvs ps).flatten.length := by
  cases p <;> simp [tv, presentTlvs, room, tlv_length]

theorem some_cons (t : Nat) (v : Bytes) (ps : List (Option (Nat × Bytes))) :
    (presentTlvs (some (t, v) :: ps)).flatten.length = 4 + v.length + pad v.length + (presentTlvs ps).flatten.length := by
  simp [presentTlvs, tlv_length]

theorem be32_length (n : Nat) : (be32 n).length = 4 := rfl

theorem seq_room {b : Bytes} {qs : List (Nat × Bytes)} (h : ParamSeq b qs) : ∀ q ∈ qs, 4 + q.2.length ≤ b.length := by
  induction h with
  | nil => nofun
  | cut t v f _ _ _ =>
    intro q hq
    simp only [List.mem_singleton] at hq
    subst hq
    simp [be16]; omega
  | cons t v f rest ps _ _ _ _ ih =>
    intro q hq
    rcases List.mem_cons.mp hq with rfl | hq
    · simp [be16]; omega
    · have := ih q hq
      simp [be16]; omega

/-- The acknowledgement of a Heartbeat is not longer than this, but for the padding that may have been missing. -/
theorem echo_length {raw : Bytes} {m : M3UA} (h : M3UA.parse raw = .ok m) (hk : m.kind = some .heartbeat) :
    (echo raw m).length ≤ (raw.length + 3) / 4 * 4 := by
  obtain ⟨h8, hs⟩ := parse_kind raw m h
  rw [hk] at hs
  have hsel := List.find?_some hs.symm
  have hlen : (echo raw m).length = 8 + room (m.field .heartbeatData) := by
    have := present_cons (m.field .heartbeatData) []
    simp only [presentTlvs, List.flatten_nil, List.length_nil, Nat.add_zero] at this
    rw [echo, List.length_append, this]
    simp; omega
  rw [hlen]
  have hq : ∃ qs, ParamSeq (raw.drop 8) qs := Classical.byContradiction fun hn => by
    obtain ⟨e, he⟩ := c23_bad_body raw fun qs hq => hn ⟨qs, hq⟩
    rw [h] at he; cases he
  obtain ⟨qs, hq⟩ := hq
  rcases c24_parse raw h8 .heartbeat (by simpa using hsel) qs hq with ⟨-, m', hm, -, -, hf⟩ | ⟨-, e, he, -⟩
  · rw [h] at hm
    cases hm
    have hf := hf .heartbeatData (by decide)
    cases hv : lastValue .heartbeatData qs with
    | none =>
      rw [hv] at hf
      rw [hf]
      simp only [room]; omega
    | some v =>
      rw [hv] at hf
      obtain ⟨p, h1, -, h3, -⟩ := hf
      rw [h1]
      have := seq_room hq _ (lastValue_mem hv)
      rw [List.length_drop] at this
      simp only [room, h3, pad] at this ⊢
      omega
  · rw [h] at he; cases he

theorem length_le {c : Config} {mode : Mode} {bytes : M3UA → Bytes} {rs : List Bytes} {d : Bytes} (h : OwnDatagram c mode bytes rs d) :
    d.length ≤ max 140 (longest c) ∨ ∃ raw ∈ rs, (∃ m, M3UA.parse raw = .ok m ∧ m.kind = some .heartbeat) ∧ d.length ≤ (raw.length + 3) / 4 * 4 := by
  cases h with
  | @request s _ h =>
    left
    cases mode <;> cases s <;> simp only [request, reduceCtorEq, Option.some.injEq] at h <;> subst h <;>
      simp only [message_length, present_cons, presentTlvs, List.flatten_nil, List.length_nil, longest] <;> omega
  | @ack k _ h =>
    left
    cases k <;> simp only [ack, reduceCtorEq, Option.some.injEq] at h <;> subst h <;>
      simp only [message_length, present_cons, presentTlvs, List.flatten_nil, List.length_nil, longest] <;> omega
  | @error e _ h =>
    left
    cases e <;> simp only [errorMessage, reduceCtorEq, Option.some.injEq] at h <;> subst h <;>
      simp only [message_length, present_cons, some_cons, presentTlvs, List.flatten_nil, List.flatten_cons, List.length_append, tlv_length, be32_length,
        List.length_nil, List.length_take, longest, pad] <;> omega
  | @beat d h => left; simp only [message_length, List.flatten_cons, List.flatten_nil, List.append_nil, tlv_length, h, pad]; omega
  | @echo raw m hr h hk => exact .inr ⟨raw, hr, ⟨m, h, hk⟩, echo_length h hk⟩

end Lengths

/-- C118: whatever happens, also after the connection was closed, a connection sends nothing by itself but the request for the next state, the four
acknowledgements and the Error messages made from its configuration, Heartbeats with 128 bytes, and the acknowledgement of a Heartbeat that it has received
before. -/
theorem c118_own {E : Env} {w : World} (h : Reachable E w) {l₁ l₂ : List Rec} {x : Rec} (hl : w.trace = l₁ ++ x :: l₂) (hu : ofUser x.gor = false)
    {s : Sent} (hs : sent? x.ev = some s) {bytes : M3UA → List UInt8} (hbytes : ∀ m : M3UA, m.Encodes (bytes m)) :
    OwnDatagram E.cfg E.mode bytes (receives l₁) s.bytes := by
  have hby : bytes = M3UA.wire := funext fun m => M3UA.encodes_iff.mp (hbytes m)
  subst hby
  have hof : w.of x.tid = l₁.filter (·.tid == x.tid) ++ x :: l₂.filter (·.tid == x.tid) := by
    rw [World.of, hl, List.filter_append, List.filter_cons_of_pos (by simp)]
  obtain ⟨pre, h₁, he, hP⟩ := Hist.iter h hof (Lengths.forms E x.gor)
  have hsrc := Flow.source h hl
  obtain ⟨i, g, o, r⟩ := x
  cases o <;> simp only [sent?, reduceCtorEq, Option.some.injEq] at hs
  subst hs
  cases g with
  | api c => cases hu
  | packet raw =>
    refine Lengths.more hP fun r hr => ?_
    simp only [List.mem_singleton] at hr
    subst hr
    exact hsrc
  | _ => exact Lengths.more hP nofun

/-- C118: so each is at most as long as a Heartbeat, or as the longest message made from the configuration, or as a Heartbeat received before, with padding. -/
theorem c118_length {E : Env} {w : World} (h : Reachable E w) {l₁ l₂ : List Rec} {x : Rec} (hl : w.trace = l₁ ++ x :: l₂) (hu : ofUser x.gor = false)
    {s : Sent} (hs : sent? x.ev = some s) :
    s.bytes.length ≤ max 140 (longest E.cfg) ∨ ∃ raw ∈ receives l₁, (∃ m, M3UA.parse raw = .ok m ∧ m.kind = some .heartbeat) ∧
      s.bytes.length ≤ (raw.length + 3) / 4 * 4 :=
  Lengths.length_le (c118_own h hl hu hs M3UA.encodes_wire)

/-- C118: whatever is received, what a connection sends by itself fits into the buffer of the peer if its configuration does. -/
theorem c118_fits {E : Env} (hE : longest E.cfg ≤ 1500) {w : World} (h : Reachable E w) : ∀ s ∈ ownSends w.trace, s.bytes.length ≤ 1500 := by
  intro s hs
  obtain ⟨x, hx, hs⟩ := List.mem_filterMap.mp hs
  obtain ⟨hx, hu⟩ := List.mem_filter.mp hx
  obtain ⟨l₁, l₂, hl⟩ := List.append_of_mem hx
  rcases c118_length h hl (by simpa using hu) hs with hlen | ⟨raw, hr, -, hlen⟩
  · omega
  · obtain ⟨y, hy, hr⟩ := List.mem_filterMap.mp hr
    have hy : y ∈ w.trace := by rw [hl]; exact List.mem_append_left _ hy
    have hf := (Facts.reach h).2.2 y hy
    obtain ⟨i, g, o, r⟩ := y
    cases o <;> simp only [received?, reduceCtorEq] at hr
    obtain ⟨h1, h2⟩ := hf
    have h1 : _ = 1500 := h1
    subst h1
    subst hr
    have h2 : raw.length ≤ 1500 := h2
    omega

/-- C118: with two endpoints of this library, if the configuration of the one fits and each of its calls is meant to send something that does, then everything
it sends does: this is what C82, C83, C113 and others assume. -/
theorem c118_all {E : Env} (hE : longest E.cfg ≤ 1500) {w : World} (h : Reachable E w)
    (hu : ∀ t ∈ w.threads, ∀ c d, t.gor = .api c → meant E.cfg c d → d.length ≤ 1500) : ∀ s ∈ sends w.trace, s.bytes.length ≤ 1500 := by
  intro s hs
  obtain ⟨x, hx, hs⟩ := List.mem_filterMap.mp hs
  cases hg : ofUser x.gor with
  | false => exact c118_fits hE h s (List.mem_filterMap.mpr ⟨x, List.mem_filter.mpr ⟨hx, by simp [hg]⟩, hs⟩)
  | true =>
    obtain ⟨c, hc⟩ : ∃ c, x.gor = .api c := by
      cases hx : x.gor <;> rw [hx] at hg <;> simp only [ofUser, Bool.false_eq_true] at hg
      exact ⟨_, rfl⟩
    have hi := (Follows.reach h).1 x hx
    have ht : w.threads[x.tid]? = some w.threads[x.tid] := List.getElem?_eq_getElem hi
    have hxi : x ∈ w.of x.tid := List.mem_filter.mpr ⟨hx, by simp⟩
    have htg : w.threads[x.tid].gor = .api c := by
      obtain ⟨h1, pre, h2, h3⟩ := (Follows.reach h).2 x.tid _ ht
      have hx' := hxi
      rw [h2] at hx'
      rcases List.mem_append.mp hx' with hx' | hx'
      · exact absurd hc (h3.not_api hx')
      · obtain ⟨e, -, he⟩ := List.mem_map.mp hx'
        exact (congrArg Rec.gor he).trans hc
    exact hu _ (List.getElem_mem hi) c _ htg ((call_sends h ht htg).2 s (List.mem_filterMap.mpr ⟨x, hxi, hs⟩))

/-- C118: the bound is needed. Every client that is let into AspInactive sends these two messages; they are longer than the buffer of the peer if the
parameters are. -/
theorem c118_tight {E : Env} (hm : E.mode = .client) : ∃ w, Reachable E w ∧ ((ownSends w.trace).map fun s => s.bytes.length) =
    [8 + room E.cfg.aspIdentifier, 8 + room E.cfg.trafficModeType + room E.cfg.routingContexts] := by
  obtain ⟨mode, cfg, hb, ms⟩ := E
  cases hm
  obtain ⟨w, h1, h2⟩ := reach_of (E := ⟨.client, cfg, hb, ms⟩)
    (cs := boot .client ++ [.deliver (message 1 3 4 [])] ++ go 2 2 ++ [.loop 2] ++ go 4 3 ++ [.sync 4 2] ++ go 2 6)
    (f := fun w => (ownSends w.trace).map Sent.bytes)
    (v := [(M3UA.aspUp (Msg.AspUp.new cfg.aspIdentifier none)).wire,
      (M3UA.aspActive (Msg.AspActive.new cfg.trafficModeType cfg.routingContexts none)).wire]) (by kernel_rfl)
  refine ⟨w, h1, ?_⟩
  have := congrArg (List.map List.length) h2
  rw [List.map_map] at this
  refine Eq.trans this ?_
  simp only [List.map_cons, List.map_nil, aspUp_wire, aspActive_wire, Lengths.message_length, Lengths.present_cons, presentTlvs, List.flatten_nil,
    List.length_nil, Nat.add_zero, Nat.add_assoc]

/-- A configuration with `n` routing contexts. -/
def manyContexts (n : Nat) : Config := { E₀.cfg with routingContexts := some (Param.newRoutingContext (List.replicate n 7)) }

theorem manyContexts_longest (n : Nat) : longest (manyContexts n) = 28 + 4 * n ∧ room (manyContexts n).routingContexts = 4 + 4 * n := by
  have hl : (Param.newRoutingContext (List.replicate n 7)).data.length = 4 * n := by
    simp [Param.newRoutingContext, Param.newMultiUint32Val, Param.setLength, u32bytes_spec, be32, List.length_flatMap, Nat.mul_comm]
  have h1 : room (manyContexts n).routingContexts = 4 + 4 * n := by
    simp only [manyContexts, room, hl, pad]; omega
  refine ⟨?_, h1⟩
  simp only [longest, h1]
  simp only [manyContexts, E₀, room, Config.new]
  omega

/-- C118: with 373 routing contexts or more the ASP Active of a client does not fit, and a peer that reads 1500 bytes of it cannot decode them: by C49 it never
reads again. -/
theorem c118_unreadable {n : Nat} (h1 : 373 ≤ n) (h2 : 4 * n ≤ maxValue) :
    ∃ d, request (manyContexts n) .client .inactive = some d ∧ d.length = 12 + 4 * n ∧ ∃ e, M3UA.parse (d.take 1500) = .err e := by
  have hl : (Param.newRoutingContext (List.replicate n 7)).data.length = 4 * n := by
    simp [Param.newRoutingContext, Param.newMultiUint32Val, Param.setLength, u32bytes_spec, be32, List.length_flatMap, Nat.mul_comm]
  refine ⟨_, rfl, ?_, ?_⟩
  · rw [Lengths.message_length, Lengths.present_cons, Lengths.present_cons, (manyContexts_longest n).2]
    simp only [manyContexts, E₀, Config.new, room, presentTlvs, List.flatten_nil, List.length_nil]
    omega
  · refine c23_bad_body _ fun qs hq => ?_
    have e : (presentTlvs [tv (manyContexts n).trafficModeType, tv (manyContexts n).routingContexts]).flatten =
        tlv 6 (Param.newRoutingContext (List.replicate n 7)).data := by
      simp [manyContexts, E₀, Config.new, tv, presentTlvs, Param.newRoutingContext, Param.newMultiUint32Val, Param.setLength, Tag.routingContext]
    generalize hv : (Param.newRoutingContext (List.replicate n 7)).data = v at hl e
    have e2 : ((message 1 4 1 (presentTlvs [tv (manyContexts n).trafficModeType, tv (manyContexts n).routingContexts])).take 1500).drop 8 =
        be16 6 ++ be16 (4 + v.length) ++ v.take 1488 := by
      rw [message, e, tlv]
      simp [be32, be16, List.take_append]
      omega
    rw [e2] at hq
    generalize hb : be16 6 ++ be16 (4 + v.length) ++ v.take 1488 = b at hq
    have hbl : b.length = 1492 := by rw [← hb]; simp [be16]; omega
    have hq' := Lengths.seq_room hq
    have hlen : ∀ k, k ≤ maxValue → be16 (4 + v.length) = be16 (4 + k) → 4 + k ≤ 1492 → False := by
      intro k hk he hle
      unfold maxValue at hk h2
      have := be16_inj (by omega) (by omega) he
      omega
    have hd := congrArg (fun l => (l.drop 2).take 2) hb
    cases hq with
    | nil => simp at hbl
    | cut t w f h3 h4 h5 =>
      have := hq' (t, w) (by simp)
      exact hlen w.length h4 (by simpa [be16] using hd) (hbl ▸ this)
    | cons t w f rest ps h3 h4 h5 h6 =>
      have := hq' (t, w) (by simp)
      exact hlen w.length h4 (by simpa [be16] using hd) (hbl ▸ this)

open Classical in
/-- C118: so, with C82: if the first user only calls `Write` and `WriteToStream` with data that fit, the other gets no data but those that were written, and
no more often than they were written. Nothing is assumed about what the first endpoint sends by itself. -/
theorem c118_write {Ea Eb : Env} (hE : longest Ea.cfg ≤ 1500) {p : Link} (h : Link.Reachable Ea Eb p) (hc : DataConfig Ea.cfg) (hu : PlainUser p.a)
    (hb : ∀ t ∈ p.a.threads, ∀ b, (t.gor = .api (.write b) ∨ ∃ s, t.gor = .api (.writeToStream b s)) → (dataOf Ea.cfg b).length ≤ 1500) (b : Bytes) :
    (returns p.b.trace).countP (fun res => res = .data b.length b ∨ ∃ pd, res = .pd pd ∧ pd.data = b) ≤
      p.a.threads.countP (fun t => t.gor = .api (.write b) ∨ ∃ s, t.gor = .api (.writeToStream b s)) := by
  refine c82_write h (c118_all hE h.ends.1 fun t ht c d hg hm => ?_) hc hu b
  have hp := hu t ht
  rw [hg] at hp
  cases c <;> simp only [meant] at hm hp
  · exact hm ▸ hb t ht _ (.inl hg)
  · exact hm ▸ hb t ht _ (.inr ⟨_, hg⟩)

/-- For `c118_own`, `c118_length` and `c118_fits`: a server that is not active yet objects to a heartbeat with a longer message than it has received. -/
example : longest E₀.cfg = 24 ∧ ∃ w, Reachable { E₀ with mode := .server } w ∧ (receives w.trace, (ownSends w.trace).map Sent.bytes) =
    ([message 1 3 1 [], message 1 3 3 [tlv 9 [7]]], [message 1 3 4 [], message 1 0 0 [tlv 12 (be32 6), tlv 18 (be32 1)]]) :=
  ⟨by decide +kernel, reach_of (cs := boot .server ++ [.deliver (message 1 3 1 []), .deliver (message 1 3 3 [tlv 9 [7]])] ++ go 2 2 ++ [.loop 2] ++
    go 4 5 ++ [.sync 4 2] ++ go 2 6 ++ [.loop 2] ++ go 5 2 ++ [.sync 5 2] ++ go 2 2) (by kernel_rfl)⟩

/-- For `c118_all` and `c118_write`: Handshake, a `Write` by the client, a `ReadPD` by the server. -/
example : longest E₀.cfg ≤ 1500 ∧ ∃ p, Link.Reachable E₀ { E₀ with mode := .server } p ∧
    (p.a.threads.map Thread.gor).drop 6 = [.api (.write [8, 9])] ∧ (dataOf E₀.cfg [8, 9]).length = 28 ∧
    returns p.b.trace = [.pd (payloadFor E₀.cfg [8, 9])] := by
  obtain ⟨p, h1, h2⟩ := link_of (Ea := E₀) (Eb := { E₀ with mode := .server }) (f := fun p => ((p.a.threads.map Thread.gor).drop 6, returns p.b.trace))
    (cs := shake ++ onA ([.call (.write [8, 9]), .run 6 (.std 2)] ++ go 6 4) ++
      .toB 0 :: onB (go 2 2 ++ [.loop 2] ++ go 6 2 ++ go 7 2 ++ [.call .readPD] ++ go 8 3))
    (v := ([.api (.write [8, 9])], [.pd (payloadFor E₀.cfg [8, 9])])) (by kernel_rfl)
  simp only [Prod.mk.injEq] at h2
  exact ⟨by decide +kernel, p, h1, h2.1, by decide +kernel, h2.2⟩

/-- For `c118_tight` and `c118_unreadable`: with 373 routing contexts the ASP Active is 1504 bytes long. -/
example : ∃ w, Reachable { E₀ with cfg := manyContexts 373 } w ∧ ((ownSends w.trace).map fun s => s.bytes.length) = [8, 1504] := by
  obtain ⟨w, h1, h2⟩ := c118_tight (E := { E₀ with cfg := manyContexts 373 }) rfl
  refine ⟨w, h1, h2.trans ?_⟩
  simp only [manyContexts_longest]
  rfl

end M3.Conn
