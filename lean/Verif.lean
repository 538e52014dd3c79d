import Verif.Axioms
import Verif.Basic
import Verif.Lemmas.Bytes
import Verif.Lemmas.Codec
import Verif.Lemmas.Conn.Active
import Verif.Lemmas.Conn.Calm
import Verif.Lemmas.Conn.CalmInv
import Verif.Lemmas.Conn.CalmRest
import Verif.Lemmas.Conn.CalmRun
import Verif.Lemmas.Conn.CalmSent
import Verif.Lemmas.Conn.Code
import Verif.Lemmas.Conn.Count
import Verif.Lemmas.Conn.Disc
import Verif.Lemmas.Conn.Down
import Verif.Lemmas.Conn.Est
import Verif.Lemmas.Conn.Facts
import Verif.Lemmas.Conn.Flow
import Verif.Lemmas.Conn.Fold
import Verif.Lemmas.Conn.Fuel
import Verif.Lemmas.Conn.Group
import Verif.Lemmas.Conn.Halt
import Verif.Lemmas.Conn.Hist
import Verif.Lemmas.Conn.Idle
import Verif.Lemmas.Conn.Keep
import Verif.Lemmas.Conn.LinkSched
import Verif.Lemmas.Conn.Lock
import Verif.Lemmas.Conn.MonRound
import Verif.Lemmas.Conn.Path
import Verif.Lemmas.Conn.Pulse
import Verif.Lemmas.Conn.PulseDuo
import Verif.Lemmas.Conn.PulseEven
import Verif.Lemmas.Conn.PulseInv
import Verif.Lemmas.Conn.PulseRest
import Verif.Lemmas.Conn.PulseSent
import Verif.Lemmas.Conn.PulseStep
import Verif.Lemmas.Conn.Race
import Verif.Lemmas.Conn.Reply
import Verif.Lemmas.Conn.Role
import Verif.Lemmas.Conn.Round
import Verif.Lemmas.Conn.Sched
import Verif.Lemmas.Conn.Script
import Verif.Lemmas.Conn.Shake
import Verif.Lemmas.Conn.ShakeCheck
import Verif.Lemmas.Conn.ShakeFits
import Verif.Lemmas.Conn.ShakeGood
import Verif.Lemmas.Conn.ShakeLevels
import Verif.Lemmas.Conn.ShakePart1
import Verif.Lemmas.Conn.ShakePart2
import Verif.Lemmas.Conn.ShakePart3
import Verif.Lemmas.Conn.ShakePart4
import Verif.Lemmas.Conn.ShakePart5
import Verif.Lemmas.Conn.ShakeSim
import Verif.Lemmas.Conn.Solo
import Verif.Lemmas.Conn.Timed
import Verif.Lemmas.Conn.Token
import Verif.Lemmas.Conn.Wake
import Verif.Lemmas.KernelRfl
import Verif.Lemmas.Memory
import Verif.Lemmas.Messages
import Verif.Lemmas.MsgInst
import Verif.Lemmas.ParamKinds
import Verif.Lemmas.Params
import Verif.Lemmas.Pc
import Verif.Lemmas.Seq
import Verif.Lemmas.Strings
import Verif.Model.Config
import Verif.Model.Conn.AcceptLoop
import Verif.Model.Conn.Calm
import Verif.Model.Conn.Errors
import Verif.Model.Conn.Funcs
import Verif.Model.Conn.Group
import Verif.Model.Conn.Link
import Verif.Model.Conn.Pair
import Verif.Model.Conn.Prog
import Verif.Model.Conn.Prompt
import Verif.Model.Conn.Setup
import Verif.Model.Conn.Sys
import Verif.Model.Conn.Timed
import Verif.Model.Constants
import Verif.Model.Errors
import Verif.Model.Examples
import Verif.Model.Generic
import Verif.Model.Header
import Verif.Model.Held
import Verif.Model.HeldPayload
import Verif.Model.Logger
import Verif.Model.Memory
import Verif.Model.Message
import Verif.Model.Msg.AspActive
import Verif.Model.Msg.AspActiveAck
import Verif.Model.Msg.AspDown
import Verif.Model.Msg.AspDownAck
import Verif.Model.Msg.AspInactive
import Verif.Model.Msg.AspInactiveAck
import Verif.Model.Msg.AspUp
import Verif.Model.Msg.AspUpAck
import Verif.Model.Msg.Data
import Verif.Model.Msg.Daud
import Verif.Model.Msg.Dava
import Verif.Model.Msg.Drst
import Verif.Model.Msg.Duna
import Verif.Model.Msg.Dupu
import Verif.Model.Msg.Error
import Verif.Model.Msg.Heartbeat
import Verif.Model.Msg.HeartbeatAck
import Verif.Model.Msg.Notify
import Verif.Model.Msg.Scon
import Verif.Model.Names
import Verif.Model.Nil
import Verif.Model.ParamKinds
import Verif.Model.Params
import Verif.Model.Pc
import Verif.Model.Sharing
import Verif.Model.Strings
import Verif.Props.Append
import Verif.Props.Buffers
import Verif.Props.Config
import Verif.Props.Conn.AcceptLoop
import Verif.Props.Conn.Always
import Verif.Props.Conn.Backlog
import Verif.Props.Conn.Beat
import Verif.Props.Conn.BeatData
import Verif.Props.Conn.Calls
import Verif.Props.Conn.Causes
import Verif.Props.Conn.Closing
import Verif.Props.Conn.Compared
import Verif.Props.Conn.Crash
import Verif.Props.Conn.Cut
import Verif.Props.Conn.Deadline
import Verif.Props.Conn.Deaf
import Verif.Props.Conn.Delivery
import Verif.Props.Conn.Denial
import Verif.Props.Conn.Duo
import Verif.Props.Conn.Early
import Verif.Props.Conn.EndToEnd
import Verif.Props.Conn.Ended
import Verif.Props.Conn.ErrorValues
import Verif.Props.Conn.Errors
import Verif.Props.Conn.Examples
import Verif.Props.Conn.Final
import Verif.Props.Conn.Finish
import Verif.Props.Conn.Flow
import Verif.Props.Conn.Gateway
import Verif.Props.Conn.Group
import Verif.Props.Conn.Halt
import Verif.Props.Conn.Handling
import Verif.Props.Conn.Handshake
import Verif.Props.Conn.Hang
import Verif.Props.Conn.Heartbeats
import Verif.Props.Conn.Kept
import Verif.Props.Conn.Lengths
import Verif.Props.Conn.Lockout
import Verif.Props.Conn.Lost
import Verif.Props.Conn.Mirror
import Verif.Props.Conn.Monitor
import Verif.Props.Conn.OneByOne
import Verif.Props.Conn.Order
import Verif.Props.Conn.Outcome
import Verif.Props.Conn.Prompt
import Verif.Props.Conn.Pulse
import Verif.Props.Conn.Race
import Verif.Props.Conn.Reading
import Verif.Props.Conn.Readmit
import Verif.Props.Conn.Realized
import Verif.Props.Conn.Remains
import Verif.Props.Conn.Replies
import Verif.Props.Conn.Retired
import Verif.Props.Conn.Room
import Verif.Props.Conn.Session
import Verif.Props.Conn.Setup
import Verif.Props.Conn.State
import Verif.Props.Conn.Talk
import Verif.Props.Conn.Timed
import Verif.Props.Conn.Transcript
import Verif.Props.Conn.Work
import Verif.Props.Examples
import Verif.Props.Held
import Verif.Props.HeldPayload
import Verif.Props.Logger
import Verif.Props.Memory
import Verif.Props.MessageLayout
import Verif.Props.Messages
import Verif.Props.Names
import Verif.Props.Nil
import Verif.Props.ParamKinds
import Verif.Props.ParamValues
import Verif.Props.Params
import Verif.Props.Pc
import Verif.Props.Reencode
import Verif.Props.Refused
import Verif.Props.Sharing
import Verif.Props.Strings
import Verif.Props.Truncated
import Verif.Spec.Beats
import Verif.Spec.Conn
import Verif.Spec.Display
import Verif.Spec.Duo
import Verif.Spec.Flow
import Verif.Spec.Halt
import Verif.Spec.Handling
import Verif.Spec.Meaning
import Verif.Spec.Memory
import Verif.Spec.Monitor
import Verif.Spec.Numbers
import Verif.Spec.PointCode
import Verif.Spec.Pulse
import Verif.Spec.Race
import Verif.Spec.Refused
import Verif.Spec.Script
import Verif.Spec.Session
import Verif.Spec.Table
import Verif.Spec.Talk
import Verif.Spec.Timed
import Verif.Spec.Wire
import Verif.Spec.Work
import Verif.Tests.Codec
import Verif.Tests.ReadWrite
