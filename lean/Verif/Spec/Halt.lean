import Verif.Spec.Meaning
import Verif.Props.Conn.Reading

/- Specification: a connection that does nothing any more unless something happens outside. -/

set_option autoImplicit false

namespace M3.Spec

open M3.Conn

/-- This happens only because of the world outside: an association that was not closed fails, there are no random numbers, a timer expires. -/
def foreign (sh : Shared) : Ev → Bool
  | ⟨.read _, r⟩ => r.isNone && !sh.sctpClosed
  | ⟨.write _ _, r⟩ => r.isNone && !sh.sctpClosed
  | ⟨.rand, r⟩ => r.isNone
  | ⟨.estSelect, r⟩ => r = .timeout
  | ⟨.ackSelect, r⟩ => r = .timer
  | ⟨.sleepSelect, r⟩ => r = false
  | _ => false

/-- The steps of `Step` that goroutines make by themselves: they need no datagram, no call, no timer and no failure. -/
inductive Own (E : Env) : World → World → Prop where
  | run {w sh'} (i : Nat) (g : Gor) (h : List Ev) (o : Op) (k : Resp o → Prog (Option Gor)) (r : Resp o) :
      w.sh.crashed = false → w.threads[i]? = some ⟨g, h, .op o k⟩ → Exec w.sh o r sh' → foreign w.sh ⟨o, r⟩ = false →
      Own E w ⟨sh', w.threads.set i ⟨g, h ++ [⟨o, r⟩], k r⟩ ++ (spawned o).map (Thread.fresh E), w.trace ++ [⟨i, g, o, r⟩]⟩
  | sync {w sh'} (i j : Nat) (gi gj : Gor) (hi hj : List Ev) (oi oj : Op)
      (ki : Resp oi → Prog (Option Gor)) (kj : Resp oj → Prog (Option Gor)) (ri : Resp oi) (rj : Resp oj) :
      w.sh.crashed = false → i ≠ j → w.threads[i]? = some ⟨gi, hi, .op oi ki⟩ →
      w.threads[j]? = some ⟨gj, hj, .op oj kj⟩ → Sync w.sh oi ri oj rj sh' →
      Own E w ⟨sh', (w.threads.set i ⟨gi, hi ++ [⟨oi, ri⟩], ki ri⟩).set j ⟨gj, hj ++ [⟨oj, rj⟩], kj rj⟩,
        w.trace ++ [⟨i, gi, oi, ri⟩, ⟨j, gj, oj, rj⟩]⟩
  | loop {w} (i : Nat) (g g' : Gor) (h : List Ev) :
      w.sh.crashed = false → w.threads[i]? = some ⟨g, h, .ret (some g')⟩ →
      Own E w { w with threads := w.threads.set i (Thread.fresh E g') }
  | crash {w} (i : Nat) (g : Gor) (h : List Ev) (o : Op) (k : Resp o → Prog (Option Gor)) :
      w.sh.crashed = false → w.threads[i]? = some ⟨g, h, .op o k⟩ → Crashes w.sh o →
      Own E w { w with sh := { w.sh with crashed := true } }

theorem Own.step {E : Env} {w w' : World} (h : Own E w w') : Step E w w' := by
  cases h with
  | run i g h o k r h1 h2 h3 h4 => exact .run i g h o k r h1 h2 h3
  | sync i j gi gj hi hj oi oj ki kj ri rj h1 h2 h3 h4 h5 => exact .sync i j gi gj hi hj oi oj ki kj ri rj h1 h2 h3 h4 h5
  | loop i g g' h h1 h2 => exact .loop i g g' h h1 h2
  | crash i g h o k h1 h2 h3 => exact .crash i g h o k h1 h2 h3

/-- `n` steps that the goroutines make by themselves. -/
inductive OwnRun (E : Env) : Nat → World → World → Prop where
  | refl (w) : OwnRun E 0 w w
  | tail {n a b c} : OwnRun E n a b → Own E b c → OwnRun E (n + 1) a c

/-- In how many pieces datagrams are read. -/
def pieces (l : List Bytes) : Nat := (l.map fun d => d.length / 1500 + 1).sum

/-- Nothing happens any more by itself, and the process has not panicked. -/
structure Halted (E : Env) (w : World) : Prop where
  alive : w.sh.crashed = false
  rest : ∀ w', ¬ Own E w w'

/-- Some goroutine is about to do this. -/
def _root_.M3.Conn.World.at (w : World) (o : Op) : Prop := ∃ (i : Nat) (t : Thread) (k : Resp o → Prog (Option Gor)),
  w.threads[i]? = some t ∧ t.prog = .op o k

/-- The connection works: it waits for a datagram, and there is none. -/
structure Listening (w : World) : Prop where
  reads : w.at (.read 1500)
  inbox : w.sh.inbox = []
  sctp : w.sh.sctpClosed = false
  lock : w.sh.locked = false

/-- The connection is deaf: the monitor waits for a report about the last datagram, and there will be none, because that datagram is
unusable, or because it is a Heartbeat Ack and no heartbeat waits for it. -/
structure Deafened (w : World) : Prop where
  waits : w.at .monSelect
  ctx : w.sh.ctxDone = false
  lock : w.sh.locked = false
  cause : ∃ raw, (receives w.trace).getLast? = some raw ∧
    (Unusable raw ∨ (meaning raw = some .heartbeatAck ∧ w.at .sendAck ∧ ¬ w.at .ackSelect))

/-- The connection is locked up: the monitor has set the state to AspActive and, holding the lock, wants to tell `Dial` or `Accept`, which returned
or timed out before. -/
structure LockedUp (w : World) : Prop where
  sends : w.at .sendEst
  lock : w.sh.locked = true
  state : w.sh.st = .active
  cause : ∃ x ∈ w.trace, x.ev = ⟨.opened .conn, ()⟩ ∨ x.ev = ⟨.opened .timeout, ()⟩

/-- The connection is closed: the monitor has returned. -/
structure Over (w : World) : Prop where
  ended : ∃ g h, w.threads[2]? = some ⟨g, h, .ret none⟩
  sctp : w.sh.sctpClosed = true
  lock : w.sh.locked = false

end M3.Spec
