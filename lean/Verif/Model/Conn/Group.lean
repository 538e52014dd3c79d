import Verif.Model.Conn.Sys

/- A process with any number of connections that share one `Config`, as those accepted by one `Listener` do, and those that a user opens with
the same `*Config`. -/

set_option autoImplicit false

namespace M3.Conn

/-- A connection of the process. -/
structure Member where
  E : Env
  w : World

/-- The connections, in the order in which `Dial` (`client.go:19-66`) and `Accept` (`server.go:43-91`) got their associations from SCTP, and whose buffer
`HeartbeatInfo.Data` of the shared configuration points to, if it does not point to what the user has put there. It is this variable that counts:
the field `beatRef` of the single connections is set before each of their steps (`Group.seen`). -/
structure Group where
  conns : List Member
  owner : Option Nat

/-- A process without connections. -/
def Group.init : Group := ⟨[], none⟩

/-- What `HeartbeatInfo.Data` holds; `d` is what the user has put there. -/
def Group.data (d : Bytes) (p : Group) : Bytes := match p.owner with
  | none => d
  | some k => match p.conns[k]? with
    | some m => m.w.sh.beatBuf
    | none => d

/-- What `HeartbeatInfo.Data` is for connection `k`: its own buffer, or bytes that it does not hold otherwise. -/
def Group.view (d : Bytes) (p : Group) (k : Nat) : BeatRef := if p.owner = some k then .buf else .own (p.data d)

/-- A connection with a given value of `HeartbeatInfo.Data`. -/
def World.withBeat (w : World) (r : BeatRef) : World := { w with sh := { w.sh with beatRef := r } }

/-- Connection `k` of the process, if it has the state `w`, as it appears from inside. -/
def Group.seen (d : Bytes) (p : Group) (k : Nat) (w : World) : World := w.withBeat (p.view d k)

/-- A panic of one connection ends the process, hence all of them. -/
def Group.Alive (p : Group) : Prop := ∀ m ∈ p.conns, m.w.sh.crashed = false

/-- Whose buffer `HeartbeatInfo.Data` points to after connection `k`, now in state `w`, has taken a step. -/
def Group.owner' (p : Group) (k : Nat) (w : World) : Option Nat := match w.sh.beatRef with
  | .buf => some k
  | .own _ => p.owner

/-- One step: `Dial` or `Accept` gets a new association (the user may call them from several goroutines, so others may still be in the handshake), or
one of the connections takes a step, of its goroutines, its users or its peer. The configuration and the settings of the heartbeat are shared; the
number of streams is negotiated for each association. -/
inductive Group.Step (cfg : Config) (hb : HeartbeatInfo) : Group → Group → Prop where
  | start {p : Group} (m : Mode) (n : UInt16) : p.Alive →
      Group.Step cfg hb p { p with conns := p.conns ++ [⟨⟨m, cfg, hb, n⟩, Conn.init ⟨m, cfg, hb, n⟩⟩] }
  | conn {p : Group} {k : Nat} {m : Member} {w' : World} : p.Alive → p.conns[k]? = some m →
      Conn.Step m.E (p.seen hb.data k m.w) w' → (w'.trace = m.w.trace → w'.sh.beatRef = p.view hb.data k) →
      Group.Step cfg hb p ⟨p.conns.set k ⟨m.E, w'⟩, p.owner' k w'⟩

/-- Any number of steps. -/
inductive Group.Reachable (cfg : Config) (hb : HeartbeatInfo) : Group → Prop where
  | init : Group.Reachable cfg hb .init
  | step {p q : Group} : Group.Reachable cfg hb p → Group.Step cfg hb p q → Group.Reachable cfg hb q

end M3.Conn
