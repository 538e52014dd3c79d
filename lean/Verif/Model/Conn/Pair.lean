import Verif.Model.Conn.Sys
import Verif.Spec.Conn

/- Two endpoints of this library, a client (`Dial`) and a server (`Accept`), connected by an SCTP association that
loses, changes and reorders nothing. The code of each endpoint is that of `Verif.Model.Conn.Funcs`. -/

set_option autoImplicit false

namespace M3.Conn

open Spec (sends)

/-- Outcomes that are possible on a working association with enough time: SCTP calls and `crypto/rand` do not
fail and timers do not expire. -/
def Ev.calm : Ev → Bool
  | ⟨.write _ _, r⟩ => r.isSome
  | ⟨.read _, r⟩ => r.isSome
  | ⟨.rand, r⟩ => r.isSome
  | ⟨.estSelect, r⟩ => r ≠ .timeout
  | ⟨.ackSelect, r⟩ => r ≠ .timer
  | _ => true

/-- The steps of `Step` that the goroutines of the library make themselves, with calm outcomes: no datagram
arrives, nobody calls the API or cancels the context. -/
inductive Work (E : Env) : World → World → Prop where
  | run {w sh'} (i : Nat) (g : Gor) (h : List Ev) (o : Op) (k : Resp o → Prog (Option Gor)) (r : Resp o) :
      w.sh.crashed = false → w.threads[i]? = some ⟨g, h, .op o k⟩ → Exec w.sh o r sh' → Ev.calm ⟨o, r⟩ = true →
      Work E w ⟨sh', w.threads.set i ⟨g, h ++ [⟨o, r⟩], k r⟩ ++ (spawned o).map (Thread.fresh E),
        w.trace ++ [⟨i, g, o, r⟩]⟩
  | sync {w sh'} (i j : Nat) (gi gj : Gor) (hi hj : List Ev) (oi oj : Op)
      (ki : Resp oi → Prog (Option Gor)) (kj : Resp oj → Prog (Option Gor)) (ri : Resp oi) (rj : Resp oj) :
      w.sh.crashed = false → i ≠ j → w.threads[i]? = some ⟨gi, hi, .op oi ki⟩ →
      w.threads[j]? = some ⟨gj, hj, .op oj kj⟩ → Sync w.sh oi ri oj rj sh' →
      Work E w ⟨sh', (w.threads.set i ⟨gi, hi ++ [⟨oi, ri⟩], ki ri⟩).set j ⟨gj, hj ++ [⟨oj, rj⟩], kj rj⟩,
        w.trace ++ [⟨i, gi, oi, ri⟩, ⟨j, gj, oj, rj⟩]⟩
  | loop {w} (i : Nat) (g g' : Gor) (h : List Ev) :
      w.sh.crashed = false → w.threads[i]? = some ⟨g, h, .ret (some g')⟩ →
      Work E w { w with threads := w.threads.set i (Thread.fresh E g') }
  | crash {w} (i : Nat) (g : Gor) (h : List Ev) (o : Op) (k : Resp o → Prog (Option Gor)) :
      w.sh.crashed = false → w.threads[i]? = some ⟨g, h, .op o k⟩ → Crashes w.sh o →
      Work E w { w with sh := { w.sh with crashed := true } }

theorem Work.step {E : Env} {w w' : World} (h : Work E w w') : Step E w w' := by
  cases h with
  | run i g h o k r h1 h2 h3 h4 => exact .run i g h o k r h1 h2 h3
  | sync i j gi gj hi hj oi oj ki kj ri rj h1 h2 h3 h4 h5 => exact .sync i j gi gj hi hj oi oj ki kj ri rj h1 h2 h3 h4 h5
  | loop i g g' h h1 h2 => exact .loop i g g' h h1 h2
  | crash i g h o k h1 h2 h3 => exact .crash i g h o k h1 h2 h3

/-- The datagrams handed to SCTP so far. -/
def World.out (w : World) : List Bytes := (sends w.trace).map (·.bytes)

/-- A datagram arrives. -/
def World.deliver (w : World) (d : Bytes) : World := { w with sh := { w.sh with inbox := w.sh.inbox ++ [d] } }

theorem World.deliver_step {E : Env} {w : World} (d : Bytes) (h : w.sh.crashed = false) : Step E w (w.deliver d) :=
  .env h (.deliver d)

/-- Client, server, and the datagrams under way in both directions. -/
structure Pair where
  client : World
  server : World
  toServer : List Bytes
  toClient : List Bytes

/-- The association was just set up. -/
def Pair.init (Ec Es : Env) : Pair := ⟨Conn.init Ec, Conn.init Es, [], []⟩

/-- One step: an endpoint works, what it writes is sent off; or the datagram sent first arrives. -/
inductive Pair.Step (Ec Es : Env) : Pair → Pair → Prop where
  | client {p c'} : Work Ec p.client c' →
      Pair.Step Ec Es p { p with client := c', toServer := p.toServer ++ c'.out.drop p.client.out.length }
  | server {p s'} : Work Es p.server s' →
      Pair.Step Ec Es p { p with server := s', toClient := p.toClient ++ s'.out.drop p.server.out.length }
  | toServer {p d q} : p.server.sh.crashed = false → p.toServer = d :: q →
      Pair.Step Ec Es p { p with server := p.server.deliver d, toServer := q }
  | toClient {p d q} : p.client.sh.crashed = false → p.toClient = d :: q →
      Pair.Step Ec Es p { p with client := p.client.deliver d, toClient := q }

/-- `n` steps. -/
inductive Pair.Steps (Ec Es : Env) : Nat → Pair → Pair → Prop where
  | refl (p : Pair) : Pair.Steps Ec Es 0 p p
  | tail {n : Nat} {a b c : Pair} : Pair.Steps Ec Es n a b → Pair.Step Ec Es b c → Pair.Steps Ec Es (n + 1) a c

theorem Pair.Steps.head {Ec Es : Env} {n : Nat} {a b c : Pair} (h : Pair.Step Ec Es a b) (hs : Pair.Steps Ec Es n b c) :
    Pair.Steps Ec Es (n + 1) a c := by
  induction hs with
  | refl p => exact .tail (.refl a) h
  | tail _ hq ih => exact .tail (ih h) hq

end M3.Conn
