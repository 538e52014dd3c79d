import Verif.Lemmas.Conn.Hist
import Verif.Lemmas.Conn.Sched
import Verif.Spec.Conn
import Verif.Props.MessageLayout

/- Properties of the methods of `Conn`: what a call observes, sends and returns. -/

set_option autoImplicit false
set_option linter.unusedSimpArgs false

namespace M3.Spec

open M3.Conn

/-- The DATA datagram that `WritePD(pd)` is expected to produce with configuration `c`: RFC 4666, 3.3.1. -/
def dataWith (c : Config) (pd : Option (Nat × Bytes)) : Bytes :=
  message 1 1 1 (presentTlvs [tv c.networkAppearance, tv c.routingContexts, pd, tv c.correlationID])

/-- The DATA datagram that `Write(b)` is expected to produce with configuration `c`. -/
def dataOf (c : Config) (b : Bytes) : Bytes :=
  dataWith c (some (0x210, protocolData c.originatingPointCode.toNat c.destinationPointCode.toNat
    c.serviceIndicator.toNat c.networkIndicator.toNat c.messagePriority.toNat c.signalingLinkSelection.toNat b))

/-- What a call meant to send datagram `d` on one of the given streams has observed and sent when it returns
`res`: outside `AspActive` it sends nothing and returns `ErrNotEstablished`; in `AspActive` it hands `d` to
SCTP once and returns the error of SCTP, or the number of bytes reported by SCTP *plus* the length of `d`. -/
def WriteOutcome (d : Bytes) (streams : UInt16 → Prop) (obs : List St) (snt : List Sent) (res : ApiRes) : Prop :=
  (∃ st, obs = [st] ∧ st ≠ .active ∧ snt = [] ∧ res = .fail .notEstablished) ∨
  (obs = [.active] ∧ ∃ x, snt = [x] ∧ x.bytes = d ∧ streams x.stream ∧ x.ppid = 3 ∧
    res = match x.answer with
      | none => .fail .sctp
      | some n => .wrote (n + d.length))

/-- What a call meant to return the next payload, converted by `f`, has observed and taken from the queue when
it returns `res`. -/
def ReadOutcome (f : ProtocolDataPayload → ApiRes) (obs : List St) (took : List (Option ProtocolDataPayload))
    (res : ApiRes) : Prop :=
  (∃ st, obs = [st] ∧ st ≠ .active ∧ took = [] ∧ res = .fail .notEstablished) ∨
  (obs = [.active] ∧ ∃ x, took = [x] ∧ res = match x with
    | none => .fail .notEstablished
    | some pd => f pd)

end M3.Spec

namespace M3.Conn

open Spec

theorem dataMsg_wire (E : Env) (pd : Option Param) : (dataMsg E pd).wire = dataWith E.cfg (tv pd) :=
  (M3UA.encodes_iff.mp (c17_data E.cfg.networkAppearance E.cfg.routingContexts pd E.cfg.correlationID)).symm

theorem userPD_wire (E : Env) (b : Bytes) : (dataMsg E (some (userPD E b))).wire = dataOf E.cfg b := by
  rw [dataMsg_wire, dataOf]
  have : ProtocolDataPayload.encode ⟨E.cfg.originatingPointCode, E.cfg.destinationPointCode, E.cfg.serviceIndicator,
      E.cfg.networkIndicator, E.cfg.messagePriority, E.cfg.signalingLinkSelection, b⟩ =
      protocolData E.cfg.originatingPointCode.toNat E.cfg.destinationPointCode.toNat E.cfg.serviceIndicator.toNat
        E.cfg.networkIndicator.toNat E.cfg.messagePriority.toNat E.cfg.signalingLinkSelection.toNat b := by
    simp only [ProtocolDataPayload.encode, u32bytes_spec, protocolData, UInt8.ofNat_toNat]
  rw [← this]
  rfl

/-- What has to be shown of a call that writes. -/
def WriteCall (d : Bytes) (streams : UInt16 → Prop) (s : List Ev) (res : ApiRes) : Prop :=
  WriteOutcome d streams (s.filterMap observed?) (s.filterMap sent?) res

theorem WriteCall.conclude {E : Env} {w : World} (h : Reachable E w) {i : Nat} {t : Thread}
    (ht : w.threads[i]? = some t) {c : Api} (hc : t.gor = .api c) {d : Bytes} {streams : UInt16 → Prop}
    (hw : WP (Hist (Hist.Call (WriteCall d streams))) (.api c) (fun _ _ => True) [] (body E (.api c)))
    {res : ApiRes} (hm : res ∈ returns (w.of i)) :
    WriteOutcome d streams (observes (w.of i)) (sends (w.of i)) res := by
  obtain ⟨l, hl, hC⟩ := Hist.call h ht hc hw hm
  rw [hl]
  rw [WriteCall, List.filterMap_map, List.filterMap_map] at hC
  rw [observes, sends, List.filterMap_append, List.filterMap_append]
  exact (List.append_nil _).symm ▸ (List.append_nil _).symm ▸ hC

macro "write_call" : tactic => `(tactic| (
  wp_code [Hist.ok_eq, Hist.may_eq, Hist.next_eq, Hist.Call, WriteCall, WriteOutcome, Facts.may, List.nil_append,
    List.append_assoc, List.cons_append, List.filterMap_append, List.filterMap_cons, List.filterMap_nil,
    observed?, sent?, returned?, userPD_wire]
  simp +contextual [Facts.choose_range]))

/-! ### C41, C40: writing -/

/-- C41: `Write(b)` sends nothing outside `AspActive`, and otherwise exactly the DATA datagram determined by
the configuration and `b`, on a stream between 1 and the maximum (C40). The number it returns is the number
SCTP reports plus the length of the datagram. -/
theorem c41_write {E : Env} {w : World} (h : Reachable E w) {i : Nat} {t : Thread} (ht : w.threads[i]? = some t)
    {b : Bytes} (hc : t.gor = .api (.write b)) {res : ApiRes} (hm : res ∈ returns (w.of i)) :
    WriteOutcome (dataOf E.cfg b) (fun s => 1 ≤ s ∧ s ≤ E.maxStream) (observes (w.of i)) (sends (w.of i)) res := by
  refine WriteCall.conclude h ht hc ?_ hm
  write_call
  exact fun _ _ _ h _ _ _ => (Facts.choose_range h).1

/-- C41: the same for `WriteToStream`, on the given stream. -/
theorem c41_writeToStream {E : Env} {w : World} (h : Reachable E w) {i : Nat} {t : Thread}
    (ht : w.threads[i]? = some t) {b : Bytes} {s : UInt16} (hc : t.gor = .api (.writeToStream b s)) {res : ApiRes}
    (hm : res ∈ returns (w.of i)) :
    WriteOutcome (dataOf E.cfg b) (· = s) (observes (w.of i)) (sends (w.of i)) res := by
  refine WriteCall.conclude h ht hc ?_ hm
  write_call

/-- The same two bytes written to stream 9, refused by SCTP. -/
example : ∃ w, Reachable E₀ w ∧ (w.threads[5]?.map Thread.gor, returns (w.of 5), observes (w.of 5), sends (w.of 5)) =
    (some (.api (.writeToStream [8, 9] 9)), [.fail .sctp], [.active],
      [⟨[1, 0, 1, 1, 0, 0, 0, 28, 2, 16, 0, 18, 0, 0, 0, 1, 0, 0, 0, 2, 3, 4, 5, 6, 8, 9, 0, 0], 9, 3, none⟩]) :=
  reach_of (cs := opening .client ++ [.call (.writeToStream [8, 9] 9), .run 5 (.std 0), .run 5 (.std 0),
    .run 5 .fail, .run 5 (.std 0)]) (by kernel_rfl)

/-- C41: the same for `WritePD`; a nil parameter is left out. -/
theorem c41_writePD {E : Env} {w : World} (h : Reachable E w) {i : Nat} {t : Thread}
    (ht : w.threads[i]? = some t) {pd : Option Param} (hc : t.gor = .api (.writePD pd)) {res : ApiRes}
    (hm : res ∈ returns (w.of i)) :
    WriteOutcome (dataWith E.cfg (tv pd)) (fun s => 1 ≤ s ∧ s ≤ E.maxStream) (observes (w.of i)) (sends (w.of i))
      res := by
  rw [← dataMsg_wire]
  refine WriteCall.conclude h ht hc ?_ hm
  write_call
  exact fun _ _ _ h _ _ _ => (Facts.choose_range h).1

/-- C41: the same for `WritePDToStream`. -/
theorem c41_writePDToStream {E : Env} {w : World} (h : Reachable E w) {i : Nat} {t : Thread}
    (ht : w.threads[i]? = some t) {pd : Option Param} {s : UInt16} (hc : t.gor = .api (.writePDToStream pd s))
    {res : ApiRes} (hm : res ∈ returns (w.of i)) :
    WriteOutcome (dataWith E.cfg (tv pd)) (· = s) (observes (w.of i)) (sends (w.of i)) res := by
  rw [← dataMsg_wire]
  refine WriteCall.conclude h ht hc ?_ hm
  write_call

/-- A `Write` of two bytes, of which SCTP accepts all 28 bytes, returns 56. -/
example : ∃ w, Reachable E₀ w ∧ (w.threads[5]?.map Thread.gor, returns (w.of 5), observes (w.of 5), sends (w.of 5)) =
    (some (.api (.write [8, 9])), [.wrote 56], [.active],
      [⟨[1, 0, 1, 1, 0, 0, 0, 28, 2, 16, 0, 18, 0, 0, 0, 1, 0, 0, 0, 2, 3, 4, 5, 6, 8, 9, 0, 0], 3, 3, some 28⟩]) :=
  reach_of (cs := opening .client ++ [.call (.write [8, 9]), .run 5 (.std 2), .run 5 (.std 0), .run 5 (.std 0),
    .run 5 (.std 28), .run 5 (.std 0)]) (by kernel_rfl)

/-- C41: `WriteSignal` sends the message as it is, whatever the state, on stream 0. -/
theorem c41_writeSignal {E : Env} {w : World} (h : Reachable E w) {i : Nat} {t : Thread}
    (ht : w.threads[i]? = some t) {m : M3UA} (hc : t.gor = .api (.writeSignal m)) {res : ApiRes}
    (hm : res ∈ returns (w.of i)) :
    ∃ x, sends (w.of i) = [x] ∧ m.Encodes x.bytes ∧ x.stream = 0 ∧ x.ppid = 3 ∧
      res = match x.answer with
        | none => .fail .sctp
        | some n => .wrote (m.marshalLen + n) := by
  obtain ⟨l, hl, hC⟩ := Hist.call h ht hc (C := fun s res => ∃ x, s.filterMap sent? = [x] ∧ m.wire = x.bytes ∧
      x.stream = 0 ∧ x.ppid = 3 ∧ res = match x.answer with
        | none => .fail .sctp
        | some n => .wrote (m.marshalLen + n)) (by
    wp_code [Hist.ok_eq, Hist.may_eq, Hist.next_eq, Hist.Call, Facts.may, List.nil_append,
      List.append_assoc, List.cons_append, List.filterMap_append, List.filterMap_cons, List.filterMap_nil,
      observed?, sent?, returned?]
    simp +contextual [sigInfo_std]) hm
  obtain ⟨x, h1, h2, h3⟩ := hC
  refine ⟨x, ?_, h2 ▸ M3UA.encodes_wire m, h3⟩
  rw [hl, sends, List.filterMap_append, ← h1, List.filterMap_map]
  exact List.append_nil _

/-- An ASP Down message, sent by the user. -/
example : ∃ w, Reachable E₀ w ∧ (w.threads[5]?.map Thread.gor, returns (w.of 5), sends (w.of 5)) =
    (some (.api (.writeSignal (.aspDown (.new none)))), [.wrote 16], [⟨[1, 0, 3, 2, 0, 0, 0, 8], 0, 3, some 8⟩]) :=
  reach_of (cs := opening .client ++ [.call (.writeSignal (.aspDown (.new none))), .run 5 (.std 0), .run 5 (.std 8), .run 5 (.std 0)]) (by kernel_rfl)

/-- C40: `Write` and `WritePD` with a single outbound stream (maximum 0) never return: they send nothing and
crash the process. -/
theorem c40_single {E : Env} (hE : E.maxStream = 0) {w : World} (h : Reachable E w) {i : Nat} {t : Thread}
    (ht : w.threads[i]? = some t) (hc : (∃ b, t.gor = .api (.write b)) ∨ ∃ pd, t.gor = .api (.writePD pd))
    (hr : w.sh.crashed = false) :
    w.of i = [] ∧ ∃ w', Step E w w' ∧ w'.sh.crashed = true := by
  have key : ∀ c, t.gor = .api c → (∃ k, body E (.api c) = .op .crash k) →
      w.of i = [] ∧ ∃ w', Step E w w' ∧ w'.sh.crashed = true := by
    rintro c hc ⟨k, hk⟩
    obtain ⟨hp, ho⟩ := Follows.api h ht hc
    rw [hk, Path.op_iff] at hp
    rcases hp with ⟨h1, h2⟩ | ⟨r, _⟩
    · rw [h1] at ho
      obtain ⟨g, hist, prog⟩ := t
      simp only at h1 h2
      subst h1 h2
      exact ⟨ho, _, .crash i g [] .crash k hr ht .crash, rfl⟩
    · exact r.elim
  rcases hc with ⟨b, hc⟩ | ⟨pd, hc⟩ <;> refine key _ hc ?_ <;>
    simp only [body, apiCall, chooseStreamID, hE] <;> exact ⟨_, rfl⟩

/-- A `Write` over an association with a single outbound stream, about to crash. -/
example : ∃ w, Reachable { E₀ with maxStream := 0 } w ∧ (w.threads[5]?.map Thread.gor, w.sh.crashed) =
    (some (.api (.write [7])), false) :=
  reach_of (cs := opening .client ++ [.call (.write [7])]) (by kernel_rfl)

/-! ### C42: reading -/

/-- What has to be shown of a call that reads. -/
def ReadCall (f : ProtocolDataPayload → ApiRes) (s : List Ev) (res : ApiRes) : Prop :=
  ReadOutcome f (s.filterMap observed?) (s.filterMap took?) res ∧ s.filterMap sent? = []

theorem ReadCall.conclude {E : Env} {w : World} (h : Reachable E w) {i : Nat} {t : Thread}
    (ht : w.threads[i]? = some t) {c : Api} (hc : t.gor = .api c) {f : ProtocolDataPayload → ApiRes}
    (hw : WP (Hist (Hist.Call (ReadCall f))) (.api c) (fun _ _ => True) [] (body E (.api c)))
    {res : ApiRes} (hm : res ∈ returns (w.of i)) :
    ReadOutcome f (observes (w.of i)) (takes (w.of i)) res ∧ sends (w.of i) = [] := by
  obtain ⟨l, hl, hC⟩ := Hist.call h ht hc hw hm
  rw [hl]
  rw [ReadCall, List.filterMap_map, List.filterMap_map, List.filterMap_map] at hC
  rw [observes, sends, takes, List.filterMap_append, List.filterMap_append, List.filterMap_append]
  exact ⟨(List.append_nil _).symm ▸ (List.append_nil _).symm ▸ hC.1, (List.append_nil _).trans hC.2⟩

macro "read_call" : tactic => `(tactic| (
  wp_code [Hist.ok_eq, Hist.may_eq, Hist.next_eq, Hist.Call, ReadCall, ReadOutcome, Facts.may, List.nil_append,
    List.append_assoc, List.cons_append, List.filterMap_append, List.filterMap_cons, List.filterMap_nil,
    observed?, sent?, took?, returned?]
  simp +contextual))

/-- C42: `Read(p)` with `len(p) = n` returns the length of the payload it takes, and copies its first `n` bytes
at most; the rest is lost. Outside `AspActive` it takes nothing. -/
theorem c42_read {E : Env} {w : World} (h : Reachable E w) {i : Nat} {t : Thread} (ht : w.threads[i]? = some t)
    {n : Nat} (hc : t.gor = .api (.read n)) {res : ApiRes} (hm : res ∈ returns (w.of i)) :
    ReadOutcome (fun pd => .data pd.data.length (pd.data.take n)) (observes (w.of i)) (takes (w.of i)) res ∧
      sends (w.of i) = [] := by
  refine ReadCall.conclude h ht hc ?_ hm
  read_call

/-- C42: `ReadPD` returns the payload it takes. -/
theorem c42_readPD {E : Env} {w : World} (h : Reachable E w) {i : Nat} {t : Thread} (ht : w.threads[i]? = some t)
    (hc : t.gor = .api .readPD) {res : ApiRes} (hm : res ∈ returns (w.of i)) :
    ReadOutcome .pd (observes (w.of i)) (takes (w.of i)) res ∧ sends (w.of i) = [] := by
  refine ReadCall.conclude h ht hc ?_ hm
  read_call

/-- The peer sends DATA with the payload `[7, 8, 9]`; a `Read` with a buffer of two bytes returns 3. -/
example : ∃ w, Reachable E₀ w ∧ (w.threads[7]?.map Thread.gor, returns (w.of 7)) =
    (some (.api (.read 2)), [.data 3 [7, 8]]) :=
  reach_of (cs := opening .client ++ [.deliver [1, 0, 1, 1, 0, 0, 0, 28, 2, 16, 0, 19, 0, 0, 0, 1, 0, 0, 0, 2,
    3, 4, 5, 6, 7, 8, 9, 0]] ++ go 2 2 ++ [.loop 2] ++ go 5 2 ++ go 6 2 ++ [.call (.read 2)] ++ go 7 3)
    (by kernel_rfl)

/-! ### The other methods -/

/-- `State()` returns the state it observes. -/
theorem c60_stateCall {E : Env} {w : World} (h : Reachable E w) {i : Nat} {t : Thread} (ht : w.threads[i]? = some t)
    (hc : t.gor = .api .state) {res : ApiRes} (hm : res ∈ returns (w.of i)) :
    ∃ s, observes (w.of i) = [s] ∧ res = .state s ∧ (s = .down ∨ s = .inactive ∨ s = .active) := by
  obtain ⟨l, hl, s, h1, h2⟩ := Hist.call h ht hc (C := fun s res => ∃ st, s.filterMap observed? = [st] ∧
      res = .state st ∧ (st = .down ∨ st = .inactive ∨ st = .active)) (by
    wp_code [Hist.ok_eq, Hist.may_eq, Hist.next_eq, Hist.Call, Facts.may, List.nil_append,
      List.filterMap_append, List.filterMap_cons, List.filterMap_nil, observed?, returned?]
    simp only [List.cons.injEq, and_true, ApiRes.state.injEq]
    intro r hr
    exact ⟨r, rfl, rfl, by cases r <;> simp_all [St.asp]⟩) hm
  refine ⟨s, ?_, h2⟩
  rw [hl, observes, List.filterMap_append, ← h1, List.filterMap_map]
  exact List.append_nil _

example : ∃ w, Reachable E₀ w ∧ (w.threads[5]?.map Thread.gor, returns (w.of 5)) = (some (.api .state), [.state .active]) :=
  reach_of (cs := opening .client ++ [.call .state] ++ go 5 2) (by kernel_rfl)

end M3.Conn
