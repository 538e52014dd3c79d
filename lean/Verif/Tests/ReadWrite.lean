import Verif.Lemmas.Conn.LinkSched
import Verif.Model.Constants
import Verif.Props.Conn.Talk

/-
`TestReadWrite`, `conn_test.go:97-146`, evaluated on the model: with the configurations of the test, client and server are set up, the client writes four
bytes and the server reads them, then the other way round. A test of the model, not a theorem: one schedule of the goroutines.
-/

set_option autoImplicit false

namespace M3.Conn.Tests

open Spec

/-- `srvCfg`, `conn_test.go:25-41`. -/
def srvCfg : Config :=
  { Config.newServer (some ⟨false, 0, 0, []⟩) 0x22222222 0x11111111 1 (UInt32.ofNat ((Const.trafficMode.get "TrafficModeLoadshare").getD 0)) 0 0 [1, 2]
      (UInt8.ofNat ((Const.serviceIndicator.get "ServiceIndSCCP").getD 0)) 0 0 1 with
    aspIdentifier := none, correlationID := none }

/-- `cliCfg`, `conn_test.go:63-78`. -/
def cliCfg : Config :=
  { Config.newClient (some ⟨false, 0, 0, []⟩) 0x11111111 0x22222222 1 (UInt32.ofNat ((Const.trafficMode.get "TrafficModeLoadshare").getD 0)) 0 0 [1, 2]
      (UInt8.ofNat ((Const.serviceIndicator.get "ServiceIndSCCP").getD 0)) 0 0 1 with
    correlationID := none }

/-- The ends of the test; SCTP gave them ten streams. -/
def cli : Env := ⟨.client, cliCfg, ⟨false, 0, 0, []⟩, 10⟩
def srv : Env := ⟨.server, srvCfg, ⟨false, 0, 0, []⟩, 10⟩

/-- What the methods returned that users called. -/
def results (w : World) : List (Gor × List ApiRes) := (w.threads.filter (fun t => ofUser t.gor)).map (fun t => (t.gor, t.hist.filterMap returned?))

def msg : Bytes := [0xde, 0xad, 0xbe, 0xef]

/-- Both ends have finished: `Dial` and `Accept` have returned a connection. -/
def opened (w : World) : Bool := match w.threads[0]? with
  | some t => t.hist.any fun x => match x.op with | .opened .conn => true | _ => false
  | none => false

/-- `client-write` and `server-write`: both reads return the four bytes. (The count that `Write` returns is not looked at by the test.) -/
example : ∃ p, Link.Reachable cli srv p ∧ opened p.a = true ∧ opened p.b = true ∧
    results p.a = [(.api (.write msg), [.wrote 96]), (.api (.read 1024), [.data 4 msg])] ∧
    results p.b = [(.api (.read 1024), [.data 4 msg]), (.api (.write msg), [.wrote 96])] := by
  obtain ⟨p, h1, h2⟩ := link_of (Ea := cli) (Eb := srv) (f := fun p => (opened p.a, opened p.b, results p.a, results p.b))
    (cs := shake ++ onA (go 3 1) ++ onB (go 3 1) ++ onA ([.call (.write msg), .run 6 (.std 2)] ++ go 6 2 ++ [.run 6 (.std 48)] ++ go 6 1) ++
      .toB 0 :: onB (go 2 2 ++ [.loop 2] ++ go 6 3 ++ [.sync 6 2] ++ go 7 2 ++ go 2 4 ++ [.call (.read 1024)] ++ go 8 3) ++
      onB ([.call (.write msg), .run 9 (.std 2)] ++ go 9 2 ++ [.run 9 (.std 48)] ++ go 9 1) ++
      .toA 0 :: onA (go 2 2 ++ [.loop 2] ++ go 7 3 ++ [.sync 7 2] ++ go 8 2 ++ go 2 4 ++ [.call (.read 1024)] ++ go 9 3))
    (v := (true, true, [(.api (.write msg), [.wrote 96]), (.api (.read 1024), [.data 4 msg])],
      [(.api (.read 1024), [.data 4 msg]), (.api (.write msg), [.wrote 96])])) (by kernel_rfl)
  simp only [Prod.mk.injEq] at h2
  exact ⟨p, h1, h2⟩

end M3.Conn.Tests
