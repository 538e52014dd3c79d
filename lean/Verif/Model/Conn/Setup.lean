import Verif.Model.Conn.Errors
import Verif.Model.Conn.Sys

/- `Dial`, `Listen` and `Accept` until the goroutines of the connection are started: the calls into package `sctp` and what becomes of their results.
From there on `Verif.Model.Conn.Sys` describes the connection. -/

set_option autoImplicit false

namespace M3.Conn

/-- What package `sctp` answers. -/
structure Sctp where
  /-- `sctp.DialSCTP(network, ...)`: an error or an association -/
  dial : String → Option GoErr
  /-- `sctp.ListenSCTP(network, ...)` -/
  listen : String → Option GoErr
  /-- `sctpListener.Accept()`: an error or an association, which may have another type than `*sctp.SCTPConn` -/
  accept : Except GoErr Bool
  /-- `sctpConn.GetStatus()`: an error or the number of outbound streams (`Ostreams`, a `uint16`) -/
  status : Except GoErr UInt16

/-- Calls into package `sctp`. -/
inductive SctpCall where
  | dial (network : String)
  | listen (network : String)
  | accept
  | status
  | close
  deriving DecidableEq, Repr

/-- How far `Dial` or `Accept` gets by itself. -/
inductive Begun where
  /-- nil pointer dereference -/
  | panic
  /-- returns nil and this error -/
  | failed (e : GoErr)
  /-- starts the goroutines of a connection -/
  | running (E : Env)

/-- The end common to `Dial` (`client.go:44-53`) and `Accept` (`server.go:69-78`): the number of streams is read and the goroutines are started. -/
def begin (S : Sctp) (mode : Mode) (cfg : Config) (hb : HeartbeatInfo) : Begun × List SctpCall :=
  match S.status with
  | .error e => (.failed (.wrap "failed to get sctpConn status" e), [.status])
  | .ok ostreams => (.running ⟨mode, cfg, hb, ostreams - 1⟩, [.status])

/-- `Dial`, `client.go:19-53`, with `cfg` nil or not. -/
def dial (S : Sctp) (net : String) (cfg : Option Config) : Begun × List SctpCall :=
  match cfg with
  | none => (.panic, [])
  | some cfg =>
    match dialOpen net cfg with
    | .panic => (.panic, [])
    | .invalidNetwork net => (.failed (.other ("invalid network: " ++ net)), [])
    | .proceed (n, cfg) =>
      match cfg.heartbeatInfo with
      | none => (.panic, [])
      | some hb =>
        match S.dial n with
        | some e => (.failed e, [.dial n])
        | none =>
          let (r, l) := begin S .client cfg hb
          (r, .dial n :: l)

/-- `Listen`, `server.go:24-38`: the error or nil, and the calls. It stores the configuration, nil or not, and does not look at it. -/
def listen (S : Sctp) (net : String) : Option GoErr × List SctpCall :=
  match netMap net with
  | none => (some (.other ("invalid network: " ++ net)), [])
  | some n =>
    match S.listen n with
    | some e => (some (.wrap "failed to listen SCTP" e), [.listen n])
    | none => (none, [.listen n])

/-- `(*Listener).Accept`, `server.go:43-78`. -/
def accept (S : Sctp) (cfg : Option Config) : Begun × List SctpCall :=
  match cfg with
  | none => (.panic, [])
  | some cfg =>
    match acceptOpen cfg with
    | .panic => (.panic, [])
    | .invalidNetwork net => (.failed (.other ("invalid network: " ++ net)), [])
    | .proceed cfg =>
      match cfg.heartbeatInfo with
      | none => (.panic, [])
      | some hb =>
        match S.accept with
        | .error e => (.failed e, [.accept])
        | .ok false => (.failed (.other "failed to assert server connection"), [.accept, .close])
        | .ok true =>
          let (r, l) := begin S .server cfg hb
          (r, .accept :: l)

/-- What `Dial` and `Accept` return in the end: a panic, an error or a connection. -/
inductive Returned where
  | panic
  | error (e : GoErr)
  | conn

/-- The error returned for the outcome of the `select` at the end, `client.go:55-65`, `server.go:80-90`. -/
def OpenRes.returned : OpenRes → Returned
  | .conn => .conn
  | .failedToEstablish => .error (.var .failedToEstablish)
  | .timeout => .error (.var .timeout)

/-- What a call that got so far can return; `w` is the connection at some time after the return, if one was started. -/
inductive Begun.Returns : Begun → Returned → Option World → Prop where
  | panic : Begun.Returns .panic .panic none
  | failed (e : GoErr) : Begun.Returns (.failed e) (.error e) none
  | running {E : Env} {w : World} {x : Rec} {r : OpenRes} : Reachable E w → x ∈ w.trace → x.ev.op = .opened r →
      Begun.Returns (.running E) r.returned (some w)

end M3.Conn
