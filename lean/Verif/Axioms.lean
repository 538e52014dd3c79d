import Verif.Props.Append
import Verif.Props.Buffers
import Verif.Props.Config
import Verif.Props.Conn.AcceptLoop
import Verif.Props.Conn.Always
import Verif.Props.Conn.Backlog
import Verif.Props.Conn.Beat
import Verif.Props.Conn.BeatData
import Verif.Props.Conn.Calls
import Verif.Props.Conn.Causes
import Verif.Props.Conn.Closing
import Verif.Props.Conn.Compared
import Verif.Props.Conn.Crash
import Verif.Props.Conn.Cut
import Verif.Props.Conn.Deadline
import Verif.Props.Conn.Deaf
import Verif.Props.Conn.Delivery
import Verif.Props.Conn.Denial
import Verif.Props.Conn.Duo
import Verif.Props.Conn.Early
import Verif.Props.Conn.EndToEnd
import Verif.Props.Conn.Ended
import Verif.Props.Conn.ErrorValues
import Verif.Props.Conn.Errors
import Verif.Props.Conn.Examples
import Verif.Props.Conn.Final
import Verif.Props.Conn.Finish
import Verif.Props.Conn.Flow
import Verif.Props.Conn.Gateway
import Verif.Props.Conn.Group
import Verif.Props.Conn.Halt
import Verif.Props.Conn.Handling
import Verif.Props.Conn.Handshake
import Verif.Props.Conn.Hang
import Verif.Props.Conn.Heartbeats
import Verif.Props.Conn.Kept
import Verif.Props.Conn.Lengths
import Verif.Props.Conn.Lockout
import Verif.Props.Conn.Lost
import Verif.Props.Conn.Mirror
import Verif.Props.Conn.Monitor
import Verif.Props.Conn.OneByOne
import Verif.Props.Conn.Order
import Verif.Props.Conn.Outcome
import Verif.Props.Conn.Prompt
import Verif.Props.Conn.Pulse
import Verif.Props.Conn.Race
import Verif.Props.Conn.Reading
import Verif.Props.Conn.Readmit
import Verif.Props.Conn.Realized
import Verif.Props.Conn.Remains
import Verif.Props.Conn.Replies
import Verif.Props.Conn.Retired
import Verif.Props.Conn.Room
import Verif.Props.Conn.Session
import Verif.Props.Conn.Setup
import Verif.Props.Conn.State
import Verif.Props.Conn.Talk
import Verif.Props.Conn.Timed
import Verif.Props.Conn.Transcript
import Verif.Props.Conn.Work
import Verif.Props.Examples
import Verif.Props.Held
import Verif.Props.HeldPayload
import Verif.Props.Logger
import Verif.Props.Memory
import Verif.Props.MessageLayout
import Verif.Props.Messages
import Verif.Props.Names
import Verif.Props.Nil
import Verif.Props.ParamKinds
import Verif.Props.ParamValues
import Verif.Props.Params
import Verif.Props.Pc
import Verif.Props.Reencode
import Verif.Props.Refused
import Verif.Props.Sharing
import Verif.Props.Strings
import Verif.Props.Truncated

/-! Generated by tools/manifest.py: prints the axioms of every property theorem. -/

-- C01
#print axioms M3.c01_roundtrip
#print axioms M3.c01_too_long
#print axioms M3.c01_iff
-- C02
#print axioms M3.c02_layout
#print axioms M3.c02_length
#print axioms M3.c02_tlv
-- C03
#print axioms M3.c03_short
#print axioms M3.c03_accept
#print axioms M3.c03_invalid
#print axioms M3.c03_no_panic
-- C04
#print axioms M3.c04_total
#print axioms M3.c04_contained
-- C05
#print axioms M3.c05_language
#print axioms M3.c05_accept_iff
#print axioms M3.c05_unique
-- C06
#print axioms M3.c06_roundtrip
#print axioms M3.c06_layout
-- C07
#print axioms M3.c07_aspIdentifier
#print axioms M3.c07_trafficModeType
#print axioms M3.c07_networkAppearance
#print axioms M3.c07_correlationID
#print axioms M3.c07_errorCode
#print axioms M3.c07_status
#print axioms M3.c07_localRoutingKeyIdentifier
#print axioms M3.c07_registrationStatus
#print axioms M3.c07_deregistrationStatus
-- C08
#print axioms M3.c08_destinationPointCode
#print axioms M3.c08_concernedDestination
#print axioms M3.c08_congestionLevel
-- C09
#print axioms M3.c09_routingContexts
#print axioms M3.c09_routingContexts_wire
#print axioms M3.c09_affectedPointCodes
#print axioms M3.c09_affectedPointCodes_wire
#print axioms M3.c09_originatingPointCodeList
#print axioms M3.c09_originatingPointCodeList_wire
#print axioms M3.c09_routingContext_first
#print axioms M3.c09_affectedPointCode_first
#print axioms M3.c09_routingContext_first_wire
#print axioms M3.c09_affectedPointCode_first_wire
-- C10
#print axioms M3.c10_others
#print axioms M3.c10_routingContext
#print axioms M3.c10_routingContext_otherwise
#print axioms M3.c10_affectedPointCode
#print axioms M3.c10_affectedPointCode_otherwise
#print axioms M3.c10_wire
-- C11
#print axioms M3.c11_serviceIndicators
#print axioms M3.c11_never_equal
-- C12
#print axioms M3.c12_userCause
#print axioms M3.c12_status
-- C13
#print axioms M3.c13_local
#print axioms M3.c13_wire
#print axioms M3.c13_parse
#print axioms M3.c13_max
-- C14
#print axioms M3.c14_routingKey
#print axioms M3.c14_routingKey_few
#print axioms M3.c14_registrationResult
#print axioms M3.c14_registrationResult_few
#print axioms M3.c14_deregistrationResult
#print axioms M3.c14_deregistrationResult_few
-- C15
#print axioms M3.c15_foreign_tag
-- C16
#print axioms M3.c16_layout
#print axioms M3.c16_roundtrip
#print axioms M3.c16_fail
#print axioms M3.c16_new
-- C17
#print axioms M3.c17_error
#print axioms M3.c17_notify
#print axioms M3.c17_data
#print axioms M3.c17_duna
#print axioms M3.c17_dava
#print axioms M3.c17_daud
#print axioms M3.c17_scon
#print axioms M3.c17_dupu
#print axioms M3.c17_drst
#print axioms M3.c17_aspUp
#print axioms M3.c17_aspDown
#print axioms M3.c17_heartbeat
#print axioms M3.c17_aspUpAck
#print axioms M3.c17_aspDownAck
#print axioms M3.c17_heartbeatAck
#print axioms M3.c17_aspActive
#print axioms M3.c17_aspInactive
#print axioms M3.c17_aspActiveAck
#print axioms M3.c17_aspInactiveAck
#print axioms M3.c17_layout
-- C18
#print axioms M3.c18_roundtrip
-- C19
#print axioms M3.c19_layout
#print axioms M3.c19_roundtrip
#print axioms M3.c19_parse
-- C20
#print axioms M3.c20_unmarshal
#print axioms M3.c20_parse
#print axioms M3.c20_short
-- C21
#print axioms M3.c21_small
#print axioms M3.c21_all
#print axioms M3.c21_collisions
#print axioms M3.c21_accessors
-- C22
#print axioms M3.c22_marshalTo
#print axioms M3.c22_marshalBinary
-- C23
#print axioms M3.c23_accept_iff
#print axioms M3.c23_generic
#print axioms M3.c23_bad_body
-- C24
#print axioms M3.c24_parse
-- C25
#print axioms M3.c25_stable
-- C26
#print axioms M3.c26_repeatable
-- C27
#print axioms M3.c27_typed
#print axioms M3.c27_generic
-- C28
#print axioms M3.c28_injective
-- C29
#print axioms M3.c29_length_ignored
-- C30
#print axioms M3.c30_length
-- C31
#print axioms M3.c31_roundtrip
#print axioms M3.c31_roundtrip_string
-- C32
#print axioms M3.c32_format
-- C33
#print axioms M3.c33_new
#print axioms M3.c33_from
#print axioms M3.c33_violated
-- C34
#print axioms M3.c34_convertTo
#print axioms M3.c34_format
-- C35
#print axioms M3.c35_accept
#print axioms M3.c35_in_range
#print axioms M3.c35_no_range_check
#print axioms M3.c35_bad_variant
-- C36
#print axioms M3.c36_injective
-- C37
#print axioms M3.Logger.c37_never_returns
#print axioms M3.Logger.c37_wedged
#print axioms M3.Logger.c37_wedges
#print axioms M3.Logger.c37_otherwise
-- C38
#print axioms M3.Config.c38_history
#print axioms M3.Config.c38_constructors
#print axioms M3.Config.c38_wire
-- C39
#print axioms M3.c39_dial_panic
#print axioms M3.c39_accept_panic
#print axioms M3.c39_newConfig
#print axioms M3.c39_dial_network
#print axioms M3.c39_listen
#print axioms M3.c39_interval
-- C40
#print axioms M3.Conn.c40_streams
#print axioms M3.Conn.c40_single
-- C41
#print axioms M3.Conn.c41_write
#print axioms M3.Conn.c41_writeToStream
#print axioms M3.Conn.c41_writePD
#print axioms M3.Conn.c41_writePDToStream
#print axioms M3.Conn.c41_writeSignal
-- C42
#print axioms M3.Conn.c42_read
#print axioms M3.Conn.c42_readPD
-- C43
#print axioms M3.Conn.c43_understood
#print axioms M3.Conn.c43_unique
#print axioms M3.Conn.c43_handed
#print axioms M3.Conn.c43_queued
-- C44
#print axioms M3.Conn.c44_handoff
#print axioms M3.Conn.c44_reply
-- C45
#print axioms M3.Conn.c45_heartbeat
#print axioms M3.Conn.c45_data
-- C46
#print axioms M3.Conn.c46_state
#print axioms M3.Conn.c46_settled
#print axioms M3.Conn.c46_observed
-- C47
#print axioms M3.Conn.c47_answered
#print axioms M3.Conn.c47_handled
#print axioms M3.Conn.c47_single
-- C48
#print axioms M3.Conn.c48_turns
#print axioms M3.Conn.c48_between
-- C49
#print axioms M3.Conn.c49_silent
#print axioms M3.Conn.c49_unread
-- C50
#print axioms M3.Conn.c50_taken
#print axioms M3.Conn.c50_returned
#print axioms M3.Conn.c50_readPD
-- C51
#print axioms M3.Conn.c51_reordered
#print axioms M3.Conn.c51_any
-- C52
#print axioms M3.Conn.c52_acks
#print axioms M3.Conn.c52_heartbeat
-- C53
#print axioms M3.Conn.c53_ends
#print axioms M3.Conn.c53_opened
#print axioms M3.Conn.c53_call
-- C54
#print axioms M3.Conn.c54_blocked
#print axioms M3.Conn.c54_hang
#print axioms M3.Conn.c54_later
#print axioms M3.Conn.c54_reachable
-- C55
#print axioms M3.Conn.c55_rest
#print axioms M3.Conn.c55_close_race
#print axioms M3.Conn.c55_loss_race
#print axioms M3.Conn.c55_close_twice
-- C56
#print axioms M3.Conn.c56_causes
#print axioms M3.Conn.c56_poison
#print axioms M3.Conn.c56_doomed
-- C57
#print axioms M3.Conn.c57_handled
#print axioms M3.Conn.c57_counts
#print axioms M3.Conn.c57_only
-- C58
#print axioms M3.Conn.c58_silent
-- C59
#print axioms M3.Conn.c59_safe
#print axioms M3.Conn.c59_complete
#print axioms M3.Conn.c59_reaches
-- C60
#print axioms M3.Conn.c60_state
#print axioms M3.Conn.c60_stateCall
-- C61
#print axioms M3.Conn.c61_stream
-- C62
#print axioms M3.Conn.c62_active
#print axioms M3.Conn.c62_sent
-- C63
#print axioms M3.Conn.c63_expired
-- C64
#print axioms M3.Conn.c64_at_most
#print axioms M3.Conn.c64_lost
#print axioms M3.Conn.c64_rejected
#print axioms M3.Conn.c64_silent
#print axioms M3.Conn.c64_without
-- C65
#print axioms M3.Logger.c65_silent
#print axioms M3.Logger.c65_discards
#print axioms M3.Logger.c65_set
#print axioms M3.Logger.c65_line
-- C66
#print axioms M3.Conn.c66_drained
#print axioms M3.Conn.c66_fifo
-- C67
#print axioms M3.Conn.c67_because
#print axioms M3.Conn.c67_unsupported
-- C68
#print axioms M3.c68_infoString
#print axioms M3.c68_heartbeatData
#print axioms M3.c68_diagnosticInformation
-- C69
#print axioms M3.c69_uint32
#print axioms M3.c69_parts
#print axioms M3.c69_lists
#print axioms M3.c69_protocolData
-- C70
#print axioms M3.c70_routingKey
#print axioms M3.c70_registrationResult
#print axioms M3.c70_deregistrationResult
#print axioms M3.c70_malformed
-- C71
#print axioms M3.Conn.c71_state
#print axioms M3.Conn.c71_cancelled
#print axioms M3.Conn.c71_sender
-- C72
#print axioms M3.Conn.c72_returns
#print axioms M3.Conn.c72_nothing
-- C73
#print axioms M3.Conn.c73_rounds
#print axioms M3.Conn.c73_after
-- C74
#print axioms M3.Conn.c74_shut
#print axioms M3.Conn.c74_close
-- C75
#print axioms M3.c75_param
#print axioms M3.c75_padding
#print axioms M3.c75_header
#print axioms M3.c75_payload
-- C76
#print axioms M3.Conn.c76_deaf
#print axioms M3.Conn.c76_cancelled
#print axioms M3.Conn.c76_expired
-- C77
#print axioms M3.Conn.c77_compared
#print axioms M3.Conn.c77_race
#print axioms M3.Conn.c77_shared
-- C78
#print axioms M3.Conn.c78_missed
#print axioms M3.Conn.c78_reachable
-- C79
#print axioms M3.Conn.c79_leak
#print axioms M3.Conn.c79_reachable
-- C80
#print axioms M3.c80_names
#print axioms M3.c80_parse
#print axioms M3.c80_distinct
#print axioms M3.Conn.c80_state
-- C81
#print axioms M3.c81_right
#print axioms M3.c81_status
#print axioms M3.c81_users
#print axioms M3.c81_dupu
#print axioms M3.c81_service
-- C82
#print axioms M3.Conn.c82_integrity
#print axioms M3.Conn.c82_write
#print axioms M3.Conn.c82_readPD
-- C83
#print axioms M3.Conn.c83_received
#print axioms M3.Conn.c83_sent
#print axioms M3.Conn.c83_written
#print axioms M3.Conn.c83_overtaken
-- C84
#print axioms M3.Conn.c84_safe
#print axioms M3.Conn.c84_rest
#print axioms M3.Conn.c84_delivered
-- C85
#print axioms M3.Conn.c85_safe
#print axioms M3.Conn.c85_rest
#print axioms M3.Conn.c85_delivered
#print axioms M3.Conn.c85_plain
#print axioms M3.Conn.c85_write
-- C86
#print axioms M3.c86_header
#print axioms M3.c86_param
#print axioms M3.c86_payload
#print axioms M3.c86_message
#print axioms M3.c86_layout
#print axioms M3.c86_param_layout
#print axioms M3.c86_header_layout
#print axioms M3.c86_payload_layout
#print axioms M3.c86_terse
#print axioms M3.c86_terse_blind
-- C87
#print axioms M3.Conn.c87_work
#print axioms M3.Conn.c87_sends
#print axioms M3.Conn.c87_sends_tight
#print axioms M3.Conn.c87_goroutines
-- C88
#print axioms M3.Conn.c88_bounded
#print axioms M3.Conn.c88_rest
#print axioms M3.Conn.c88_delivered
#print axioms M3.Conn.c88_calls
#print axioms M3.Conn.c88_reached
#print axioms M3.Conn.c88_write
#print axioms M3.Conn.c88_outcome
-- C89
#print axioms M3.Conn.c89_rest
#print axioms M3.Conn.c89_occurs
#print axioms M3.Conn.c89_timeout
#print axioms M3.Conn.c89_calls
#print axioms M3.Conn.c89_listening
#print axioms M3.Conn.c89_healthy
#print axioms M3.Conn.c89_bounded
#print axioms M3.Conn.c89_settles
-- C90
#print axioms M3.Conn.c90_down
#print axioms M3.Conn.c90_left
#print axioms M3.Conn.c90_forever
#print axioms M3.Conn.c90_calls
#print axioms M3.Conn.c90_occurs
#print axioms M3.Conn.c90_beat
-- C91
#print axioms M3.c91_parse
#print axioms M3.c91_window
#print axioms M3.c91_unchanged
#print axioms M3.c91_payload
#print axioms M3.c91_nested
#print axioms M3.c91_monitor
-- C92
#print axioms M3.Conn.c92_state
#print axioms M3.Conn.c92_only
#print axioms M3.Conn.c92_none
#print axioms M3.Conn.c92_occurs
#print axioms M3.Conn.c92_config
-- C93
#print axioms M3.Conn.c93_each
#print axioms M3.Conn.c93_compared
#print axioms M3.Conn.c93_product
#print axioms M3.Conn.c93_disabled
#print axioms M3.Conn.c93_fatal
#print axioms M3.Conn.c93_confused
-- C94
#print axioms M3.Conn.c94_returns
#print axioms M3.Conn.c94_frequent
#print axioms M3.Conn.c94_waits
#print axioms M3.Conn.c94_returns_tight
#print axioms M3.Conn.c94_frequent_tight
#print axioms M3.Conn.c94_clock
#print axioms M3.Conn.c94_exists
#print axioms M3.Conn.c94_spacing
#print axioms M3.Conn.c94_intervals
#print axioms M3.Conn.c94_work
#print axioms M3.Conn.c94_expired
#print axioms M3.Conn.c94_open
#print axioms M3.Conn.c94_spacing_tight
#print axioms M3.Conn.c94_expired_tight
#print axioms M3.Conn.c94_open_tight
-- C95
#print axioms M3.Conn.c95_safe
#print axioms M3.Conn.c95_count
#print axioms M3.Conn.c95_rest
#print axioms M3.Conn.c95_beats
#print axioms M3.Conn.c95_delivered
-- C96
#print axioms M3.Conn.c96_safe
#print axioms M3.Conn.c96_count
#print axioms M3.Conn.c96_rest
#print axioms M3.Conn.c96_beats
#print axioms M3.Conn.c96_delivered
#print axioms M3.Conn.c96_hurried
-- C97
#print axioms M3.Conn.c97_handled
#print axioms M3.Conn.c97_answered
#print axioms M3.Conn.c97_heartbeats
-- C98
#print axioms M3.c98_params
#print axioms M3.c98_parse
#print axioms M3.c98_error
#print axioms M3.c98_unique
-- C99
#print axioms M3.Conn.c99_agree
#print axioms M3.Conn.c99_wrapped
#print axioms M3.Conn.c99_is
#print axioms M3.Conn.c99_text
-- C100
#print axioms M3.Conn.c100_dial
#print axioms M3.Conn.c100_accept
#print axioms M3.Conn.c100_listen
#print axioms M3.Conn.c100_closed
#print axioms M3.Conn.c100_accept_closed
#print axioms M3.Conn.c100_leak
#print axioms M3.Conn.c100_panic
#print axioms M3.Conn.c100_started
#print axioms M3.Conn.c100_streams
#print axioms M3.Conn.c100_accept_panic
#print axioms M3.Conn.c100_accept_started
#print axioms M3.Conn.c100_accept_streams
#print axioms M3.Conn.c100_conn
-- C101
#print axioms M3.c101_outcome
#print axioms M3.c101_short
#print axioms M3.c101_body
#print axioms M3.c101_unknown
#print axioms M3.c101_header
#print axioms M3.c101_nil
#print axioms M3.c101_param
-- C102
#print axioms M3.Conn.c102_never
#print axioms M3.Conn.c102_calls
#print axioms M3.Conn.c102_requests
#print axioms M3.Conn.c102_received
#print axioms M3.Conn.c102_suspend
-- C103
#print axioms M3.Conn.c103_realized
#print axioms M3.Conn.c103_once
#print axioms M3.Conn.c103_exact
#print axioms M3.Conn.c103_storm
#print axioms M3.Conn.c103_interleaved
#print axioms M3.Conn.c103_always
#print axioms M3.Conn.c103_transcript
#print axioms M3.Conn.c103_received
#print axioms M3.Conn.c103_plain
#print axioms M3.Conn.c103_same
-- C104
#print axioms M3.c104_bytes
#print axioms M3.c104_identity
#print axioms M3.c104_length
#print axioms M3.c104_wrong
#print axioms M3.c104_twice
#print axioms M3.c104_setLength
-- C105
#print axioms M3.Conn.c105_why
#print axioms M3.Conn.c105_open
#print axioms M3.Conn.c105_each
-- C106
#print axioms M3.c106_places
#print axioms M3.c106_append
#print axioms M3.c106_harmless
-- C107
#print axioms M3.c107_lengths
#print axioms M3.c107_values
#print axioms M3.c107_shared
#print axioms M3.c107_same
#print axioms M3.c107_new
#print axioms M3.c107_stale
#print axioms M3.c107_broken
-- C108
#print axioms M3.c108_new
#print axioms M3.c108_member
#print axioms M3.c108_agree
#print axioms M3.c108_string
#print axioms M3.c108_multi
#print axioms M3.c108_missing
#print axioms M3.c108_first
-- C109
#print axioms M3.c109_protocolData
#print axioms M3.c109_routingKey
#print axioms M3.c109_registrationResult
#print axioms M3.c109_deregistrationResult
#print axioms M3.c109_malformed
#print axioms M3.c109_mixed
#print axioms M3.c109_fresh
-- C110
#print axioms M3.Conn.c110_only
#print axioms M3.Conn.c110_rest
#print axioms M3.Conn.c110_reached
-- C111
#print axioms M3.Conn.c111_payload
#print axioms M3.Conn.c111_read
#print axioms M3.Conn.c111_attained
-- C112
#print axioms M3.c112_end
#print axioms M3.c112_panic
#print axioms M3.c112_raw
#print axioms M3.c112_zero
#print axioms M3.c112_str
#print axioms M3.c112_both
#print axioms M3.c112_back
#print axioms M3.c112_fuzz
-- C113
#print axioms M3.Conn.c113_setup
#print axioms M3.Conn.c113_bytes
#print axioms M3.Conn.c113_read
#print axioms M3.Conn.c113_outcome
#print axioms M3.Conn.c113_ways
#print axioms M3.Conn.c113_beats
-- C114
#print axioms M3.Conn.c114_final
#print axioms M3.Conn.c114_closed
-- C115
#print axioms M3.Conn.c115_ends
#print axioms M3.Conn.c115_silent
#print axioms M3.Conn.c115_served
-- C116
#print axioms M3.Conn.c116_ignored
#print axioms M3.Conn.c116_random
#print axioms M3.Conn.c116_default
-- C117
#print axioms M3.Conn.c117_before
#print axioms M3.Conn.c117_written
#print axioms M3.Conn.c117_read
-- C118
#print axioms M3.Conn.c118_own
#print axioms M3.Conn.c118_length
#print axioms M3.Conn.c118_fits
#print axioms M3.Conn.c118_all
#print axioms M3.Conn.c118_tight
#print axioms M3.Conn.c118_unreadable
#print axioms M3.Conn.c118_write
-- C119
#print axioms M3.Conn.c119_closes
#print axioms M3.Conn.c119_over
#print axioms M3.Conn.c119_reads
#print axioms M3.Conn.c119_after
#print axioms M3.Conn.c119_occurs
-- C120
#print axioms M3.Conn.c120_bound
#print axioms M3.Conn.c120_waits
#print axioms M3.Conn.c120_pile
#print axioms M3.Conn.c120_unbounded
#print axioms M3.Conn.c120_fatal
#print axioms M3.Conn.c120_close
#print axioms M3.Conn.c120_occurs
-- C121
#print axioms M3.Conn.c121_means
#print axioms M3.Conn.c121_poison
#print axioms M3.Conn.c121_delivered
#print axioms M3.Conn.c121_crash
#print axioms M3.c121_params
#print axioms M3.c121_accepts
#print axioms M3.c121_message
#print axioms M3.c121_bare
#print axioms M3.c121_length
-- C122
#print axioms M3.Conn.c122_closed
#print axioms M3.Conn.c122_waits
#print axioms M3.Conn.c122_result
#print axioms M3.Conn.c122_occurs
-- C123
#print axioms M3.Conn.c123_only
#print axioms M3.Conn.c123_unfinished
#print axioms M3.Conn.c123_inactive
#print axioms M3.Conn.c123_result
#print axioms M3.Conn.c123_endless
-- C124
#print axioms M3.Conn.c124_only
#print axioms M3.Conn.c124_rest
#print axioms M3.Conn.c124_reached
-- C125
#print axioms M3.Conn.c125_unfinished
#print axioms M3.Conn.c125_lost
#print axioms M3.Conn.c125_endless
-- C126
#print axioms M3.Conn.c126_hangs
#print axioms M3.Conn.c126_reached
