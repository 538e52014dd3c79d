import Verif.Lemmas.Conn.Facts
import Verif.Lemmas.Conn.Sched
import Verif.Spec.Conn

/- Properties of every operation in every execution: C40, C60, C61. -/

set_option autoImplicit false

namespace M3.Conn

open Spec

/-- C60: the state of a connection is always one of the three ASP states, and so is every state that anybody
observes. -/
theorem c60_state {E : Env} {w : World} (h : Reachable E w) :
    (w.sh.st = .down ∨ w.sh.st = .inactive ∨ w.sh.st = .active) ∧
    ∀ s ∈ observes w.trace, s = .down ∨ s = .inactive ∨ s = .active := by
  have key : ∀ s : St, s.asp = true → s = .down ∨ s = .inactive ∨ s = .active := by
    intro s hs; cases s <;> simp_all [St.asp]
  obtain ⟨h1, -, h3⟩ := Facts.reach h
  refine ⟨key _ h1, fun s hs => key s ?_⟩
  obtain ⟨x, hx, hxs⟩ := List.mem_filterMap.mp hs
  obtain ⟨i, g, o, r⟩ := x
  cases o <;> simp only [observed?, reduceCtorEq, Option.some.injEq] at hxs
  have := (h3 _ hx).2
  subst hxs
  exact this

/-- All three states do occur. -/
example : (∃ w, Reachable E₀ w ∧ w.sh.st = .down) ∧ (∃ w, Reachable E₀ w ∧ w.sh.st = .active) ∧
    ∃ w, Reachable E₀ w ∧ w.sh.st = .inactive :=
  ⟨⟨_, .refl _, rfl⟩, (opening_ok E₀).imp fun _ h => ⟨h.1, h.2.1⟩,
    reach_of (cs := boot .client ++ [.deliver [1, 0, 3, 4, 0, 0, 0, 8]] ++ go 2 2 ++ [.loop 2] ++ go 4 3
      ++ [.sync 4 2] ++ go 2 3) (by kernel_rfl)⟩

/-- C61: the stream id of a connection is 0, `StreamID()` returns 0, and no message is ever rejected with an
invalid-stream error. -/
theorem c61_stream {E : Env} {w : World} (h : Reachable E w) :
    w.sh.info.stream = 0 ∧
    (∀ x ∈ w.trace, x.gor = .api .streamID → ∀ res, returned? x.ev = some res → ∀ n, res = .stream n → n = 0) ∧
    (∀ x ∈ w.trace, ∀ id, x.ev.op ≠ .sendErr (.invalidStream id)) := by
  obtain ⟨-, h2, h3⟩ := Facts.reach h
  refine ⟨by rw [h2], fun x hx hg res hr n hn => ?_, fun x hx id he => ?_⟩
  · obtain ⟨i, g, o, r⟩ := x
    cases o <;> simp only [returned?, reduceCtorEq, Option.some.injEq] at hr
    have := (h3 _ hx).1
    subst hr hn
    exact this hg
  · have := (h3 x hx).1
    rw [he] at this
    exact this

/-- A call of `StreamID` that returns. -/
example : ∃ w, Reachable E₀ w ∧ ((w.threads[5]?.map Thread.gor, w.trace.filterMap fun x => returned? x.ev) =
    (some (.api .streamID), [.stream 0])) :=
  reach_of (cs := opening .client ++ [.call .streamID] ++ go 5 2) (by kernel_rfl)

/-- C40: everything is sent with payload protocol identifier 3. What the library sends by itself is sent on
stream 0: ERROR, ASP Up, Heartbeat, ASP Up Ack, ASP Down Ack, ASP Active, ASP Active Ack, ASP Inactive Ack, or
the reply to a heartbeat, which has type 6 and the class octet of that heartbeat. `Write` and `WritePD` send on
a stream between 1 and the maximum, `WriteSignal` on stream 0, the `...ToStream` methods on the stream given,
the other methods send nothing. -/
theorem c40_streams {E : Env} {w : World} (h : Reachable E w) (x : Rec) (hx : x ∈ w.trace) (s : Sent)
    (hs : sent? x.ev = some s) :
    s.ppid = 3 ∧ match x.gor with
      | .api (.write _) | .api (.writePD _) => 1 ≤ s.stream ∧ s.stream ≤ E.maxStream
      | .api (.writeToStream _ i) | .api (.writePDToStream _ i) => s.stream = i
      | .api (.writeSignal _) => s.stream = 0
      | .api _ => False
      | .packet raw => s.stream = 0 ∧ (octets s.bytes ∈ [(0, 0), (3, 1), (3, 3), (3, 4), (3, 5), (4, 1), (4, 3), (4, 4)] ∨
          ∃ m, M3UA.parse raw = .ok (.heartbeat m) ∧ octets s.bytes = ((octets raw).1, 6))
      | _ => s.stream = 0 ∧ octets s.bytes ∈ [(0, 0), (3, 1), (3, 3), (3, 4), (3, 5), (4, 1), (4, 3), (4, 4)] := by
  obtain ⟨i, g, o, r⟩ := x
  cases o <;> simp only [sent?, reduceCtorEq, Option.some.injEq] at hs
  have := ((Facts.reach h).2.2 _ hx).1
  obtain ⟨h1, h2⟩ := this
  subst hs
  refine ⟨h1, ?_⟩
  cases g with
  | api c => cases c <;> simp only [Facts.sent] at h2 <;> first | exact h2.1 | exact h2
  | packet raw =>
    refine ⟨h2.1, ?_⟩
    rcases h2.2 with h2 | ⟨raw', m, he, h3, h4⟩
    · exact .inl h2
    · cases he; exact .inr ⟨m, h3, h4⟩
  | _ =>
    refine ⟨h2.1, ?_⟩
    rcases h2.2 with h2 | ⟨raw', m, he, -⟩
    · exact h2
    · cases he

/-- A client's ASP Up. -/
example : ∃ w, Reachable E₀ w ∧ sends w.trace = [⟨[1, 0, 3, 1, 0, 0, 0, 8], 0, 3, some 0⟩] :=
  reach_of (cs := boot .client) (by kernel_rfl)

end M3.Conn
