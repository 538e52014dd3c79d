import Verif.Lemmas.Conn.Flow
import Verif.Lemmas.Conn.LinkSched
import Verif.Lemmas.Conn.Script
import Verif.Props.Conn.Monitor
import Verif.Props.Conn.Retired

/- Everything that a connection sends by itself, heartbeats aside, is a function of what it has received: C103. -/

set_option autoImplicit false
set_option linter.unusedSimpArgs false

namespace M3.Spec

open M3.Conn

/-- A Heartbeat. -/
def isBeat (d : List UInt8) : Bool := octets d = (3, 3)

/-- What a connection has handed to SCTP by itself, heartbeats aside. -/
def answered (l : List Rec) : List (List UInt8) := ((ownSends l).map Sent.bytes).filter fun d => ! isBeat d

/-- An error reported while a DATA message is delivered or a Heartbeat Ack is handled: whether and when that happens is a matter of time. -/
def loose (x : Rec) : Bool :=
  match x.gor with
  | .packet raw => (meaning raw = some .heartbeatAck : Bool) && (complaint? x.ev).isSome
  | .data _ => (complaint? x.ev).isSome
  | _ => false

/-- The Error messages for such errors, in the order in which these were reported. -/
def looseErrors (c : Config) (bytes : M3UA → List UInt8) (l : List Rec) : List (List UInt8) :=
  (l.filter loose).flatMap fun x => (complaint? x.ev).toList.flatMap fun e => (errorMessage c bytes e).toList

end M3.Spec

namespace M3.Conn

open Spec

namespace Script

theorem bad_eq (x : Rec) : bad x = loose x := by
  obtain ⟨i, g, o, r⟩ := x
  cases g <;> cases o <;> simp [bad, loose, complaint?]

theorem loose_eq (E : Env) (l : List Rec) : looseErrors E.cfg M3UA.wire l = L E l := by
  have e : (fun e => (errorMessage E.cfg M3UA.wire e).toList) = errs E := funext fun e => errorMessage_errs E e
  unfold looseErrors L
  rw [e]
  induction l with
  | nil => rfl
  | cons x l ih =>
    rw [List.filter_cons, List.flatMap_cons, bad_eq]
    split <;> rename_i h
    · rw [List.flatMap_cons, ih]
    · rw [ih]; rfl

theorem own_answers {E : Env} {w : World} (h : Reachable E w) : answered w.trace = O w.trace := by
  have h1 : ∀ x ∈ w.trace, (if ofUser x.gor then none else (sent? x.ev).bind fun s => if isBeat s.bytes then none else some s.bytes) = mine? x := by
    intro x hx
    cases hs : sent? x.ev with
    | none => cases hg : x.gor <;> simp [mine?, hg, hs]
    | some s =>
      have hm := c71_sender h hx hs
      cases hg : x.gor <;> rw [hg] at hm <;> simp only [mayCarry] at hm
      · rcases hm with hm | ⟨-, hm | hm⟩ <;> simp [mine?, ofUser, isBeat, hm, hg, hs]
      · simp [mine?, ofUser, isBeat, hm, hg, hs]
      · split at hm <;> first | exact hm.elim | simp [mine?, ofUser, isBeat, hm, hg, hs]
      · simp [mine?, ofUser, hg]
  rw [answered, ownSends, sends, O]
  generalize w.trace = l at h1
  induction l with
  | nil => rfl
  | cons x l ih =>
    have ih := ih fun y hy => h1 y (.tail _ hy)
    have h2 := h1 x (.head _)
    rw [List.filterMap_cons, ← h2, ← ih]
    cases hu : ofUser x.gor <;> cases hs : sent? x.ev <;> simp [List.filter_cons, hu, hs, List.filterMap_cons]
    cases hb : isBeat (_ : Sent).bytes <;> simp

end Script

/-- C103: whatever a connection has received, when it waits for a datagram and nobody has closed it, it has sent by itself, heartbeats aside, the
`transcript` of the datagrams received, and in between an Error message for each error reported about DATA messages and Heartbeat Acks. The transcript
is the first request, and for each datagram, in order, the answer in the state that it found and the request for the state it led to. -/
theorem c103_interleaved {E : Env} {w : World} (h : Reachable E w) (hc : ∀ x ∈ w.trace, x.ev.op ≠ .closeEst)
    {i : Nat} {g : Gor} {hist : List Ev} {n : Nat} {k : Resp (.read n) → Prog (Option Gor)}
    (ht : w.threads[i]? = some ⟨g, hist, .op (.read n) k⟩) {bytes : M3UA → List UInt8} (hbytes : ∀ m : M3UA, m.Encodes (bytes m)) :
    Interleaved (transcript E.cfg bytes E.mode (receives w.trace)) (looseErrors E.cfg bytes w.trace) (answered w.trace) := by
  have hby : bytes = M3UA.wire := funext fun m => M3UA.encodes_iff.mp (hbytes m)
  obtain ⟨ss, hl, hI⟩ := Script.reach h
  obtain ⟨s, hs⟩ := getElem?_some_of_length hl.1 ht
  obtain ⟨⟨x, rfl⟩, -⟩ := hl.2 i _ s ht hs
  have hf := hI.fact (Est.notClosed h hc) i _ hs
  rw [Script.own_answers h, hby, Script.loose_eq]
  exact Script.Ends.nil.mp hf.2

/-- C103: at any other time, too, also when the connection hangs or has stopped reading, it has sent a beginning of this: of the transcript of what it has
received, and of the Error messages mentioned. It never sends anything else, and nothing out of order. -/
theorem c103_always {E : Env} {w : World} (h : Reachable E w) (hc : ∀ x ∈ w.trace, x.ev.op ≠ .closeEst)
    {bytes : M3UA → List UInt8} (hbytes : ∀ m : M3UA, m.Encodes (bytes m)) :
    ∃ a e, a <+: transcript E.cfg bytes E.mode (receives w.trace) ∧ e <+: looseErrors E.cfg bytes w.trace ∧ Interleaved a e (answered w.trace) := by
  have hby : bytes = M3UA.wire := funext fun m => M3UA.encodes_iff.mp (hbytes m)
  obtain ⟨ss, hl, hI⟩ := Script.reach h
  rw [Script.own_answers h, hby, Script.loose_eq]
  obtain ⟨a, h1, ⟨a', rfl, h2⟩ | ⟨e', h2, h3⟩⟩ := hI.all (Est.notClosed h hc)
  · exact ⟨a', _, (List.prefix_append _ _).trans h1, List.prefix_rfl, h2⟩
  · exact ⟨a, e', h1, h2 ▸ List.prefix_append _ _, h3⟩

/-- C103: so what a connection sends is determined by what it has received. If there was no trouble with DATA messages and Heartbeat Acks, it has sent
by itself exactly the transcript. -/
theorem c103_transcript {E : Env} {w : World} (h : Reachable E w) (hc : ∀ x ∈ w.trace, x.ev.op ≠ .closeEst)
    (hb : ∀ x ∈ w.trace, loose x = false) {i : Nat} {g : Gor} {hist : List Ev} {n : Nat} {k : Resp (.read n) → Prog (Option Gor)}
    (ht : w.threads[i]? = some ⟨g, hist, .op (.read n) k⟩) {bytes : M3UA → List UInt8} (hbytes : ∀ m : M3UA, m.Encodes (bytes m)) :
    answered w.trace = transcript E.cfg bytes E.mode (receives w.trace) := by
  have hi := c103_interleaved h hc ht hbytes
  have he : looseErrors E.cfg bytes w.trace = [] := by
    rw [looseErrors, List.filter_eq_nil_iff.mpr fun x hx => by simp [hb x hx]]; rfl
  rw [he] at hi
  exact hi.eq_left

/-- An ASP Up Ack, an ASP Up that is unexpected, a DAUD, which is not supported, and an ASP Active Ack. -/
def strange : List Bytes := [message 1 3 4 [], message 1 3 1 [], message 1 2 3 [], message 1 4 3 []]

/-- For `c103_transcript` and `c103_plain`: the client asks twice, then objects to two messages and asks again after each. -/
example : ∃ w, Reachable E₀ w ∧ (∀ x ∈ w.trace, x.ev.op ≠ .closeEst) ∧ (∀ x ∈ w.trace, loose x = false) ∧
    (∃ (g : Gor) (hist : List Ev) (n : Nat) (k : Resp (.read n) → Prog (Option Gor)), w.threads[2]? = some ⟨g, hist, .op (.read n) k⟩) ∧
    (receives w.trace = strange.take 3 ∧ ∀ raw ∈ receives w.trace, meaning raw ≠ some .data ∧ meaning raw ≠ some .heartbeatAck) ∧
    answered w.trace = [message 1 3 1 [], message 1 4 1 [], message 1 0 0 [tlv 12 (be32 6), tlv 18 (be32 1)], message 1 4 1 [],
      message 1 0 0 [tlv 12 (be32 4), tlv 7 (message 1 2 3 [])], message 1 4 1 []] := by
  obtain ⟨w, h1, h2⟩ := reach_of (E := E₀) (cs := boot .client ++ [.deliver (message 1 3 4 [])] ++ go 2 2 ++ [.loop 2] ++ go 4 3 ++ [.sync 4 2] ++
      go 2 6 ++ [.deliver (message 1 3 1 [])] ++ go 2 2 ++ [.loop 2] ++ go 5 2 ++ [.sync 5 2] ++ go 2 2 ++ [.loop 2, .sync 5 2] ++ go 2 6 ++
      [.deliver (message 1 2 3 [])] ++ go 2 2 ++ [.loop 2] ++ go 6 1 ++ [.sync 6 2] ++ go 2 2 ++ [.loop 2] ++ go 6 1 ++ [.sync 6 2] ++ go 2 6)
    (f := fun w => (w.trace.all fun x => decide (x.ev.op ≠ .closeEst), w.trace.all fun x => decide (loose x = false), readingB w 2, receives w.trace,
      answered w.trace))
    (v := (true, true, true, strange.take 3, [message 1 3 1 [], message 1 4 1 [], message 1 0 0 [tlv 12 (be32 6), tlv 18 (be32 1)], message 1 4 1 [],
      message 1 0 0 [tlv 12 (be32 4), tlv 7 (message 1 2 3 [])], message 1 4 1 []])) (by kernel_rfl)
  simp only [Prod.mk.injEq, List.all_eq_true, decide_eq_true_eq] at h2
  obtain ⟨h2, h3, h4, h5, h6⟩ := h2
  exact ⟨w, h1, h2, h3, readingB_sound h4, ⟨h5, by rw [h5]; decide +kernel⟩, h6⟩

/-- The `transcript` of this. -/
example : transcript E₀.cfg M3UA.wire E₀.mode strange =
    [message 1 3 1 [], message 1 4 1 [], message 1 0 0 [tlv 12 (be32 6), tlv 18 (be32 1)], message 1 4 1 [],
      message 1 0 0 [tlv 12 (be32 4), tlv 7 (message 1 2 3 [])], message 1 4 1 []] := by decide +kernel

/-- For `c103_interleaved`: the client receives DATA before it is active. It objects and goes on. -/
example : ∃ w, Reachable E₀ w ∧ (∀ x ∈ w.trace, x.ev.op ≠ .closeEst) ∧
    (∃ (g : Gor) (hist : List Ev) (n : Nat) (k : Resp (.read n) → Prog (Option Gor)), w.threads[2]? = some ⟨g, hist, .op (.read n) k⟩) ∧
    receives w.trace = [dataOf E₀.cfg [8, 9], message 1 3 4 []] ∧
    (w.trace.filter loose).length = 1 ∧
    answered w.trace = [message 1 3 1 [], message 1 3 1 [], message 1 0 0 [tlv 12 (be32 6), tlv 18 (be32 1)], message 1 4 1 []] := by
  obtain ⟨w, h1, h2⟩ := reach_of (E := E₀) (cs := boot .client ++ [.deliver (dataOf E₀.cfg [8, 9])] ++ go 2 2 ++ [.loop 2] ++ go 4 3 ++ [.sync 4 2] ++
      go 2 6 ++ [.deliver (message 1 3 4 [])] ++ go 2 2 ++ [.loop 2] ++ go 5 1 ++ [.sync 5 2] ++ go 2 2 ++ [.loop 2] ++ go 6 3 ++ [.sync 6 2] ++ go 2 6)
    (f := fun w => (w.trace.all fun x => decide (x.ev.op ≠ .closeEst), readingB w 2, receives w.trace, (w.trace.filter loose).length,
      answered w.trace))
    (v := (true, true, [dataOf E₀.cfg [8, 9], message 1 3 4 []], 1,
      [message 1 3 1 [], message 1 3 1 [], message 1 0 0 [tlv 12 (be32 6), tlv 18 (be32 1)], message 1 4 1 []])) (by kernel_rfl)
  simp only [Prod.mk.injEq, List.all_eq_true, decide_eq_true_eq] at h2
  obtain ⟨h2, h3, h4, h5, h6⟩ := h2
  exact ⟨w, h1, h2, readingB_sound h3, h4, h5, h6⟩

/-- For `c103_always`: a client has read a message of another version. It has sent what it had to, and will not read again. -/
example : ∃ w, Reachable E₀ w ∧ (∀ x ∈ w.trace, x.ev.op ≠ .closeEst) ∧ receives w.trace = [[2, 0, 3, 4, 0, 0, 0, 8]] ∧
    answered w.trace = [message 1 3 1 [], message 1 0 0 [tlv 12 (be32 1)]] := by
  obtain ⟨w, h1, h2⟩ := reach_of (E := E₀) (cs := boot .client ++ [.deliver [2, 0, 3, 4, 0, 0, 0, 8]] ++ go 2 2 ++ [.loop 2] ++ go 4 1 ++ [.sync 4 2] ++ go 2 2)
    (f := fun w => (w.trace.all fun x => decide (x.ev.op ≠ .closeEst), receives w.trace, answered w.trace))
    (v := (true, [[2, 0, 3, 4, 0, 0, 0, 8]], [message 1 3 1 [], message 1 0 0 [tlv 12 (be32 1)]])) (by kernel_rfl)
  simp only [Prod.mk.injEq, List.all_eq_true, decide_eq_true_eq] at h2
  exact ⟨w, h1, h2.1, h2.2⟩

/-- C103: the same in a trace: when a datagram is received, exactly the transcript of those before has been sent. -/
theorem c103_received {E : Env} {w : World} (h : Reachable E w) {l₁ l₂ : List Rec} {x : Rec} {raw : Bytes} (hl : w.trace = l₁ ++ x :: l₂)
    (hx : received? x.ev = some raw) (hc : ∀ x ∈ l₁, x.ev.op ≠ .closeEst) (hb : ∀ x ∈ l₁, loose x = false)
    {bytes : M3UA → List UInt8} (hbytes : ∀ m : M3UA, m.Encodes (bytes m)) :
    answered l₁ = transcript E.cfg bytes E.mode (receives l₁) := by
  obtain ⟨j, g', o, r⟩ := x
  cases o <;> simp only [received?, reduceCtorEq] at hx
  rcases h.at hl with ⟨w₀, sh', k', hist', h₀, rfl, ht₀, -⟩ | ⟨w₀, sh', ⟨_, _, oy, ry⟩, h₀, ⟨-, hy⟩ | ⟨-, hy⟩⟩
  · exact c103_transcript h₀ hc hb ht₀ hbytes
  · cases hy
  · cases hy

theorem loose_of_received {E : Env} {w : World} (h : Reachable E w) (hr : ∀ raw ∈ receives w.trace, meaning raw ≠ some .data ∧ meaning raw ≠ some .heartbeatAck) :
    ∀ x ∈ w.trace, loose x = false := by
  intro x hx
  obtain ⟨l₁, l₂, hl⟩ := List.append_of_mem hx
  have hsrc := Flow.source h hl
  have hsub : ∀ raw ∈ receives l₁, raw ∈ receives w.trace := fun raw hraw => by
    rw [hl, receives, List.filterMap_append]; exact List.mem_append_left _ hraw
  obtain ⟨i, g, e⟩ := x
  cases g with
  | packet raw =>
    have := (hr raw (hsub raw hsrc)).2
    simp [loose, this]
  | data m =>
    obtain ⟨raw, h1, h2, -⟩ := hsrc
    exact ((hr raw (hsub raw h1)).1 h2).elim
  | _ => rfl

/-- C103: in particular if neither DATA nor Heartbeat Acks were received. -/
theorem c103_plain {E : Env} {w : World} (h : Reachable E w) (hc : ∀ x ∈ w.trace, x.ev.op ≠ .closeEst)
    (hr : ∀ raw ∈ receives w.trace, meaning raw ≠ some .data ∧ meaning raw ≠ some .heartbeatAck)
    {i : Nat} {g : Gor} {hist : List Ev} {n : Nat} {k : Resp (.read n) → Prog (Option Gor)}
    (ht : w.threads[i]? = some ⟨g, hist, .op (.read n) k⟩) {bytes : M3UA → List UInt8} (hbytes : ∀ m : M3UA, m.Encodes (bytes m)) :
    answered w.trace = transcript E.cfg bytes E.mode (receives w.trace) :=
  c103_transcript h hc (loose_of_received h hr) ht hbytes

/-- C103: two connections of the same kind that have received the same have sent the same, however their goroutines were scheduled, whatever
their users did short of closing them, and whatever their heartbeats. -/
theorem c103_same {E E' : Env} (hm : E'.mode = E.mode) (hg : E'.cfg = E.cfg) {w w' : World} (h : Reachable E w) (h' : Reachable E' w')
    (hc : ∀ x ∈ w.trace ++ w'.trace, x.ev.op ≠ .closeEst) (hb : ∀ x ∈ w.trace ++ w'.trace, loose x = false) (hr : receives w.trace = receives w'.trace)
    {i j : Nat} {g g' : Gor} {hist hist' : List Ev} {n n' : Nat} {k : Resp (.read n) → Prog (Option Gor)} {k' : Resp (.read n') → Prog (Option Gor)}
    (ht : w.threads[i]? = some ⟨g, hist, .op (.read n) k⟩) (ht' : w'.threads[j]? = some ⟨g', hist', .op (.read n') k'⟩) :
    answered w.trace = answered w'.trace := by
  rw [c103_transcript h (fun x hx => hc x (List.mem_append_left _ hx)) (fun x hx => hb x (List.mem_append_left _ hx)) ht M3UA.encodes_wire,
    c103_transcript h' (fun x hx => hc x (List.mem_append_right _ hx)) (fun x hx => hb x (List.mem_append_right _ hx)) ht' M3UA.encodes_wire,
    hm, hg, hr]

/-- For `c103_received` and `c103_same`: a client without and a client with heartbeats, whose goroutines come about in another order. -/
example : ∃ w w', Reachable E₀ w ∧ Reachable E₁ w' ∧ (∀ x ∈ w.trace ++ w'.trace, x.ev.op ≠ .closeEst) ∧
    (∀ x ∈ w.trace ++ w'.trace, loose x = false) ∧ receives w.trace = receives w'.trace ∧
    (∃ (g : Gor) (hist : List Ev) (n : Nat) (k : Resp (.read n) → Prog (Option Gor)), w.threads[2]? = some ⟨g, hist, .op (.read n) k⟩) ∧
    (∃ (g : Gor) (hist : List Ev) (n : Nat) (k : Resp (.read n) → Prog (Option Gor)), w'.threads[2]? = some ⟨g, hist, .op (.read n) k⟩) ∧
    answered w.trace = [message 1 3 1 [], message 1 4 1 []] := by
  obtain ⟨w, h1, h2⟩ := reach_of (E := E₀) (cs := boot .client ++ [.deliver (message 1 3 4 [])] ++ go 2 2 ++ [.loop 2] ++ go 4 3 ++ [.sync 4 2] ++ go 2 6)
    (f := fun w => (w.trace.all fun x => decide (x.ev.op ≠ .closeEst), w.trace.all fun x => decide (loose x = false), readingB w 2, receives w.trace,
      answered w.trace))
    (v := (true, true, true, strange.take 1, [message 1 3 1 [], message 1 4 1 []])) (by kernel_rfl)
  obtain ⟨w', h1', h2'⟩ := reach_of (E := E₁) (cs := [.deliver (message 1 3 4 [])] ++ boot .client ++ go 2 2 ++ [.loop 2] ++ go 4 3 ++ [.sync 4 2] ++ go 2 6)
    (f := fun w => (w.trace.all fun x => decide (x.ev.op ≠ .closeEst), w.trace.all fun x => decide (loose x = false), readingB w 2, receives w.trace))
    (v := (true, true, true, strange.take 1)) (by kernel_rfl)
  simp only [Prod.mk.injEq, List.all_eq_true, decide_eq_true_eq] at h2 h2'
  obtain ⟨h2, h3, h4, h5, h6⟩ := h2
  obtain ⟨h2', h3', h4', h5'⟩ := h2'
  exact ⟨w, w', h1, h1', fun x hx => (List.mem_append.mp hx).elim (h2 x) (h2' x), fun x hx => (List.mem_append.mp hx).elim (h3 x) (h3' x), h5.trans h5'.symm,
    readingB_sound h4, readingB_sound h4', h6⟩

end M3.Conn
