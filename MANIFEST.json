{
 "claims": [
  {
   "property": "C01",
   "status": "proved",
   "theorems": [
    "M3.c01_roundtrip",
    "M3.c01_too_long",
    "M3.c01_iff"
   ],
   "note": "A parameter survives marshal/parse exactly when its value fits the 16-bit length"
  },
  {
   "property": "C02",
   "status": "proved",
   "theorems": [
    "M3.c02_layout",
    "M3.c02_length",
    "M3.c02_tlv"
   ],
   "note": "Parameter wire layout"
  },
  {
   "property": "C03",
   "status": "proved",
   "theorems": [
    "M3.c03_short",
    "M3.c03_accept",
    "M3.c03_invalid",
    "M3.c03_no_panic"
   ],
   "note": "Single-parameter parsing accepts exactly the well-formed prefixes"
  },
  {
   "property": "C04",
   "status": "proved",
   "theorems": [
    "M3.c04_total",
    "M3.c04_contained"
   ],
   "note": "Parsing a parameter sequence always terminates without panicking"
  },
  {
   "property": "C05",
   "status": "proved",
   "theorems": [
    "M3.c05_language",
    "M3.c05_accept_iff",
    "M3.c05_unique"
   ],
   "note": "ParseMultiParams accepts exactly a TLV sequence whose last padding may be cut short"
  },
  {
   "property": "C06",
   "status": "proved",
   "theorems": [
    "M3.c06_roundtrip",
    "M3.c06_layout"
   ],
   "note": "Parameter lists round-trip"
  },
  {
   "property": "C07",
   "status": "proved",
   "theorems": [
    "M3.c07_aspIdentifier",
    "M3.c07_trafficModeType",
    "M3.c07_networkAppearance",
    "M3.c07_correlationID",
    "M3.c07_errorCode",
    "M3.c07_status",
    "M3.c07_localRoutingKeyIdentifier",
    "M3.c07_registrationStatus",
    "M3.c07_deregistrationStatus"
   ],
   "note": "32-bit parameters deliver the value they were built from"
  },
  {
   "property": "C08",
   "status": "proved",
   "theorems": [
    "M3.c08_destinationPointCode",
    "M3.c08_concernedDestination",
    "M3.c08_congestionLevel"
   ],
   "note": "24-bit and 8-bit parameters keep exactly the low bits"
  },
  {
   "property": "C09",
   "status": "proved",
   "theorems": [
    "M3.c09_routingContexts",
    "M3.c09_routingContexts_wire",
    "M3.c09_affectedPointCodes",
    "M3.c09_affectedPointCodes_wire",
    "M3.c09_originatingPointCodeList",
    "M3.c09_originatingPointCodeList_wire",
    "M3.c09_routingContext_first",
    "M3.c09_affectedPointCode_first",
    "M3.c09_routingContext_first_wire",
    "M3.c09_affectedPointCode_first_wire"
   ],
   "note": "Multi-valued parameters return the full list in order"
  },
  {
   "property": "C10",
   "status": "proved",
   "theorems": [
    "M3.c10_others",
    "M3.c10_routingContext",
    "M3.c10_routingContext_otherwise",
    "M3.c10_affectedPointCode",
    "M3.c10_affectedPointCode_otherwise",
    "M3.c10_wire"
   ],
   "note": "When the singular accessors panic"
  },
  {
   "property": "C11",
   "status": "proved",
   "theorems": [
    "M3.c11_serviceIndicators",
    "M3.c11_never_equal"
   ],
   "note": "ServiceIndicators padding"
  },
  {
   "property": "C12",
   "status": "proved",
   "theorems": [
    "M3.c12_userCause",
    "M3.c12_status"
   ],
   "note": "User/Cause and Status halves are packed and unpacked consistently"
  },
  {
   "property": "C13",
   "status": "proved",
   "theorems": [
    "M3.c13_local",
    "M3.c13_wire",
    "M3.c13_parse",
    "M3.c13_max"
   ],
   "note": "MTP3 Protocol Data round-trips bit for bit"
  },
  {
   "property": "C14",
   "status": "proved",
   "theorems": [
    "M3.c14_routingKey",
    "M3.c14_routingKey_few",
    "M3.c14_registrationResult",
    "M3.c14_registrationResult_few",
    "M3.c14_deregistrationResult",
    "M3.c14_deregistrationResult_few"
   ],
   "note": "Nested parameters (RoutingKey, RegistrationResult, DeregistrationResult) round-trip"
  },
  {
   "property": "C15",
   "status": "proved",
   "theorems": [
    "M3.c15_foreign_tag"
   ],
   "note": "Accessors never return another parameter's value"
  },
  {
   "property": "C16",
   "status": "proved",
   "theorems": [
    "M3.c16_layout",
    "M3.c16_roundtrip",
    "M3.c16_fail",
    "M3.c16_new"
   ],
   "note": "Common header round-trips and carries the payload unchanged"
  },
  {
   "property": "C17",
   "status": "proved",
   "theorems": [
    "M3.c17_error",
    "M3.c17_notify",
    "M3.c17_data",
    "M3.c17_duna",
    "M3.c17_dava",
    "M3.c17_daud",
    "M3.c17_scon",
    "M3.c17_dupu",
    "M3.c17_drst",
    "M3.c17_aspUp",
    "M3.c17_aspDown",
    "M3.c17_heartbeat",
    "M3.c17_aspUpAck",
    "M3.c17_aspDownAck",
    "M3.c17_heartbeatAck",
    "M3.c17_aspActive",
    "M3.c17_aspInactive",
    "M3.c17_aspActiveAck",
    "M3.c17_aspInactiveAck",
    "M3.c17_layout"
   ],
   "note": "Every constructed message has the RFC 4666 wire layout"
  },
  {
   "property": "C18",
   "status": "proved",
   "theorems": [
    "M3.c18_roundtrip"
   ],
   "note": "Every constructed message round-trips through messages.Parse"
  },
  {
   "property": "C19",
   "status": "proved",
   "theorems": [
    "M3.c19_layout",
    "M3.c19_roundtrip",
    "M3.c19_parse"
   ],
   "note": "Generic messages round-trip"
  },
  {
   "property": "C20",
   "status": "proved",
   "theorems": [
    "M3.c20_unmarshal",
    "M3.c20_parse",
    "M3.c20_short"
   ],
   "note": "messages.Parse is total"
  },
  {
   "property": "C21",
   "status": "proved",
   "theorems": [
    "M3.c21_small",
    "M3.c21_all",
    "M3.c21_collisions",
    "M3.c21_accessors"
   ],
   "note": "Which Go type messages.Parse selects"
  },
  {
   "property": "C22",
   "status": "proved",
   "theorems": [
    "M3.c22_marshalTo",
    "M3.c22_marshalBinary"
   ],
   "note": "MarshalTo respects the caller's buffer"
  },
  {
   "property": "C23",
   "status": "proved",
   "theorems": [
    "M3.c23_accept_iff",
    "M3.c23_generic",
    "M3.c23_bad_body"
   ],
   "note": "Parameters a message does not define are rejected; defined ones never are"
  },
  {
   "property": "C24",
   "status": "proved",
   "theorems": [
    "M3.c24_parse"
   ],
   "note": "Last duplicate wins"
  },
  {
   "property": "C25",
   "status": "proved",
   "theorems": [
    "M3.c25_stable"
   ],
   "note": "Re-encoding a parsed message is stable"
  },
  {
   "property": "C26",
   "status": "proved",
   "theorems": [
    "M3.c26_repeatable"
   ],
   "note": "Marshalling is repeatable"
  },
  {
   "property": "C27",
   "status": "proved",
   "theorems": [
    "M3.c27_typed",
    "M3.c27_generic"
   ],
   "note": "UnmarshalBinary into a used value"
  },
  {
   "property": "C28",
   "status": "proved",
   "theorems": [
    "M3.c28_injective"
   ],
   "note": "Encodings are unambiguous"
  },
  {
   "property": "C29",
   "status": "proved",
   "theorems": [
    "M3.c29_length_ignored"
   ],
   "note": "The length field of a received message is never checked"
  },
  {
   "property": "C30",
   "status": "proved",
   "theorems": [
    "M3.c30_length"
   ],
   "note": "The length field of a constructed message is right"
  },
  {
   "property": "C31",
   "status": "proved",
   "theorems": [
    "M3.c31_roundtrip",
    "M3.c31_roundtrip_string"
   ],
   "note": "Point codes survive raw -> string -> raw"
  },
  {
   "property": "C32",
   "status": "proved",
   "theorems": [
    "M3.c32_format"
   ],
   "note": "The formatted point code is the positional representation"
  },
  {
   "property": "C33",
   "status": "proved",
   "theorems": [
    "M3.c33_new",
    "M3.c33_from",
    "M3.c33_violated"
   ],
   "note": "Variant 4-4-6 does not work"
  },
  {
   "property": "C34",
   "status": "proved",
   "theorems": [
    "M3.c34_convertTo",
    "M3.c34_format"
   ],
   "note": "ConvertTo keeps the point code, not the variant"
  },
  {
   "property": "C35",
   "status": "proved",
   "theorems": [
    "M3.c35_accept",
    "M3.c35_in_range",
    "M3.c35_no_range_check",
    "M3.c35_bad_variant"
   ],
   "note": "NewPointCodeFrom accepts exactly matching digit groups and does not check their range"
  },
  {
   "property": "C36",
   "status": "proved",
   "theorems": [
    "M3.c36_injective"
   ],
   "note": "Point codes are distinguished by their formatted string"
  },
  {
   "property": "C37",
   "status": "proved",
   "theorems": [
    "M3.Logger.c37_never_returns",
    "M3.Logger.c37_wedged",
    "M3.Logger.c37_wedges",
    "M3.Logger.c37_otherwise"
   ],
   "note": "Enabling logging hangs"
  },
  {
   "property": "C38",
   "status": "proved",
   "theorems": [
    "M3.Config.c38_history",
    "M3.Config.c38_constructors",
    "M3.Config.c38_wire"
   ],
   "note": "Config constructors and setters store what they are given"
  },
  {
   "property": "C39",
   "status": "proved",
   "theorems": [
    "M3.c39_dial_panic",
    "M3.c39_accept_panic",
    "M3.c39_newConfig",
    "M3.c39_dial_network",
    "M3.c39_listen",
    "M3.c39_interval"
   ],
   "note": "Opening a connection without HeartbeatInfo panics; with an unknown network it fails cleanly"
  },
  {
   "property": "C40",
   "status": "proved",
   "theorems": [
    "M3.Conn.c40_streams",
    "M3.Conn.c40_single"
   ],
   "note": "DATA uses streams 1..max, everything else uses stream 0"
  },
  {
   "property": "C41",
   "status": "proved",
   "theorems": [
    "M3.Conn.c41_write",
    "M3.Conn.c41_writeToStream",
    "M3.Conn.c41_writePD",
    "M3.Conn.c41_writePDToStream",
    "M3.Conn.c41_writeSignal"
   ],
   "note": "Write sends exactly one DATA built from the configuration"
  },
  {
   "property": "C42",
   "status": "proved",
   "theorems": [
    "M3.Conn.c42_read",
    "M3.Conn.c42_readPD"
   ],
   "note": "What Read and ReadPD return"
  },
  {
   "property": "C43",
   "status": "proved",
   "theorems": [
    "M3.Conn.c43_understood",
    "M3.Conn.c43_unique",
    "M3.Conn.c43_handed",
    "M3.Conn.c43_queued"
   ],
   "note": "A DATA sent by one endpoint is delivered intact by the other"
  },
  {
   "property": "C44",
   "status": "proved",
   "theorems": [
    "M3.Conn.c44_handoff",
    "M3.Conn.c44_reply"
   ],
   "note": "Error replies"
  },
  {
   "property": "C45",
   "status": "proved",
   "theorems": [
    "M3.Conn.c45_heartbeat",
    "M3.Conn.c45_data"
   ],
   "note": "A heartbeat is answered with its own data"
  },
  {
   "property": "C46",
   "status": "proved",
   "theorems": [
    "M3.Conn.c46_state",
    "M3.Conn.c46_settled",
    "M3.Conn.c46_observed"
   ],
   "note": "State() only changes as the received messages dictate"
  },
  {
   "property": "C47",
   "status": "proved",
   "theorems": [
    "M3.Conn.c47_answered",
    "M3.Conn.c47_handled",
    "M3.Conn.c47_single"
   ],
   "note": "Unexpected messages are reported but still obeyed"
  },
  {
   "property": "C48",
   "status": "proved",
   "theorems": [
    "M3.Conn.c48_turns",
    "M3.Conn.c48_between"
   ],
   "note": "One received message is processed at a time"
  },
  {
   "property": "C49",
   "status": "proved",
   "theorems": [
    "M3.Conn.c49_silent",
    "M3.Conn.c49_unread"
   ],
   "note": "A single undecodable or wrong-version datagram silences the connection"
  },
  {
   "property": "C50",
   "status": "proved",
   "theorems": [
    "M3.Conn.c50_taken",
    "M3.Conn.c50_returned",
    "M3.Conn.c50_readPD"
   ],
   "note": "Payloads are neither invented nor duplicated"
  },
  {
   "property": "C51",
   "status": "proved",
   "theorems": [
    "M3.Conn.c51_reordered",
    "M3.Conn.c51_any"
   ],
   "note": "Payload order is not guaranteed"
  },
  {
   "property": "C52",
   "status": "proved",
   "theorems": [
    "M3.Conn.c52_acks",
    "M3.Conn.c52_heartbeat"
   ],
   "note": "No unsolicited acknowledgements"
  },
  {
   "property": "C53",
   "status": "proved",
   "theorems": [
    "M3.Conn.c53_ends",
    "M3.Conn.c53_opened",
    "M3.Conn.c53_call"
   ],
   "note": "Dial/Accept succeed only after activation"
  },
  {
   "property": "C54",
   "status": "proved",
   "theorems": [
    "M3.Conn.c54_blocked",
    "M3.Conn.c54_hang",
    "M3.Conn.c54_later",
    "M3.Conn.c54_reachable"
   ],
   "note": "Re-activation hangs the connection"
  },
  {
   "property": "C55",
   "status": "proved",
   "theorems": [
    "M3.Conn.c55_rest",
    "M3.Conn.c55_close_race",
    "M3.Conn.c55_loss_race",
    "M3.Conn.c55_close_twice"
   ],
   "note": "Close while a message is in flight can crash the process"
  },
  {
   "property": "C56",
   "status": "proved",
   "theorems": [
    "M3.Conn.c56_causes",
    "M3.Conn.c56_poison",
    "M3.Conn.c56_doomed"
   ],
   "note": "A peer can crash the process with one message"
  },
  {
   "property": "C57",
   "status": "proved",
   "theorems": [
    "M3.Conn.c57_handled",
    "M3.Conn.c57_counts",
    "M3.Conn.c57_only"
   ],
   "note": "A heartbeat ack with wrong data still counts"
  },
  {
   "property": "C58",
   "status": "proved",
   "theorems": [
    "M3.Conn.c58_silent"
   ],
   "note": "A heartbeat ack nobody waits for wedges the connection"
  },
  {
   "property": "C59",
   "status": "proved",
   "theorems": [
    "M3.Conn.c59_safe",
    "M3.Conn.c59_complete",
    "M3.Conn.c59_reaches"
   ],
   "note": "Client and server complete the handshake"
  },
  {
   "property": "C60",
   "status": "proved",
   "theorems": [
    "M3.Conn.c60_state",
    "M3.Conn.c60_stateCall"
   ],
   "note": "State() only ever reports Down, Inactive or Active"
  },
  {
   "property": "C61",
   "status": "proved",
   "theorems": [
    "M3.Conn.c61_stream"
   ],
   "note": "StreamID() is always 0 and the stream check never fires"
  },
  {
   "property": "C62",
   "status": "proved",
   "theorems": [
    "M3.Conn.c62_active",
    "M3.Conn.c62_sent"
   ],
   "note": "Nothing is transmitted by Write outside AspActive"
  },
  {
   "property": "C63",
   "status": "proved",
   "theorems": [
    "M3.Conn.c63_expired"
   ],
   "note": "Heartbeat expiry tears the connection down"
  },
  {
   "property": "C64",
   "status": "proved",
   "theorems": [
    "M3.Conn.c64_at_most",
    "M3.Conn.c64_lost",
    "M3.Conn.c64_rejected",
    "M3.Conn.c64_silent",
    "M3.Conn.c64_without"
   ],
   "note": "A DATA larger than 1500 bytes is never delivered"
  },
  {
   "property": "C65",
   "status": "proved",
   "theorems": [
    "M3.Logger.c65_silent",
    "M3.Logger.c65_discards",
    "M3.Logger.c65_set",
    "M3.Logger.c65_line"
   ],
   "note": "DisableLogging silences the current logger for good"
  },
  {
   "property": "C66",
   "status": "proved",
   "theorems": [
    "M3.Conn.c66_drained",
    "M3.Conn.c66_fifo"
   ],
   "note": "Payloads are read in the order in which they were queued"
  },
  {
   "property": "C67",
   "status": "proved",
   "theorems": [
    "M3.Conn.c67_because",
    "M3.Conn.c67_unsupported"
   ],
   "note": "Why errors are reported"
  },
  {
   "property": "C68",
   "status": "proved",
   "theorems": [
    "M3.c68_infoString",
    "M3.c68_heartbeatData",
    "M3.c68_diagnosticInformation"
   ],
   "note": "Parameters of variable length deliver the bytes they were built from"
  },
  {
   "property": "C69",
   "status": "proved",
   "theorems": [
    "M3.c69_uint32",
    "M3.c69_parts",
    "M3.c69_lists",
    "M3.c69_protocolData"
   ],
   "note": "What accessors make of any peer-supplied value"
  },
  {
   "property": "C70",
   "status": "proved",
   "theorems": [
    "M3.c70_routingKey",
    "M3.c70_registrationResult",
    "M3.c70_deregistrationResult",
    "M3.c70_malformed"
   ],
   "note": "What the accessors of nested parameters make of any peer-supplied value"
  },
  {
   "property": "C71",
   "status": "proved",
   "theorems": [
    "M3.Conn.c71_state",
    "M3.Conn.c71_cancelled",
    "M3.Conn.c71_sender"
   ],
   "note": "What the owner of the association does, and which goroutine sends what"
  },
  {
   "property": "C72",
   "status": "proved",
   "theorems": [
    "M3.Conn.c72_returns",
    "M3.Conn.c72_nothing"
   ],
   "note": "Every understood message lets the connection go on"
  },
  {
   "property": "C73",
   "status": "proved",
   "theorems": [
    "M3.Conn.c73_rounds",
    "M3.Conn.c73_after"
   ],
   "note": "What the heartbeat goroutine does"
  },
  {
   "property": "C74",
   "status": "proved",
   "theorems": [
    "M3.Conn.c74_shut",
    "M3.Conn.c74_close"
   ],
   "note": "Close"
  },
  {
   "property": "C75",
   "status": "proved",
   "theorems": [
    "M3.c75_param",
    "M3.c75_padding",
    "M3.c75_header",
    "M3.c75_payload"
   ],
   "note": "Marshalling into a buffer of the caller"
  },
  {
   "property": "C76",
   "status": "proved",
   "theorems": [
    "M3.Conn.c76_deaf",
    "M3.Conn.c76_cancelled",
    "M3.Conn.c76_expired"
   ],
   "note": "An idle connection notices nothing"
  },
  {
   "property": "C77",
   "status": "proved",
   "theorems": [
    "M3.Conn.c77_compared",
    "M3.Conn.c77_race",
    "M3.Conn.c77_shared"
   ],
   "note": "What a Heartbeat Ack is compared with"
  },
  {
   "property": "C78",
   "status": "proved",
   "theorems": [
    "M3.Conn.c78_missed",
    "M3.Conn.c78_reachable"
   ],
   "note": "A missed start signal disables heartbeats"
  },
  {
   "property": "C79",
   "status": "proved",
   "theorems": [
    "M3.Conn.c79_leak",
    "M3.Conn.c79_reachable"
   ],
   "note": "Goroutines left behind"
  },
  {
   "property": "C80",
   "status": "proved",
   "theorems": [
    "M3.c80_names",
    "M3.c80_parse",
    "M3.c80_distinct",
    "M3.Conn.c80_state"
   ],
   "note": "Names of messages and states"
  },
  {
   "property": "C81",
   "status": "proved",
   "theorems": [
    "M3.c81_right",
    "M3.c81_status",
    "M3.c81_users",
    "M3.c81_dupu",
    "M3.c81_service"
   ],
   "note": "Exported constants have the numbers of RFC 4666, except users and service indicators"
  },
  {
   "property": "C82",
   "status": "proved",
   "theorems": [
    "M3.Conn.c82_integrity",
    "M3.Conn.c82_write",
    "M3.Conn.c82_readPD"
   ],
   "note": "What is read at one end was written at the other"
  },
  {
   "property": "C83",
   "status": "proved",
   "theorems": [
    "M3.Conn.c83_received",
    "M3.Conn.c83_sent",
    "M3.Conn.c83_written",
    "M3.Conn.c83_overtaken"
   ],
   "note": "Nothing is lost between Write and Read"
  },
  {
   "property": "C84",
   "status": "proved",
   "theorems": [
    "M3.Conn.c84_safe",
    "M3.Conn.c84_rest",
    "M3.Conn.c84_delivered"
   ],
   "note": "A session without disturbances"
  },
  {
   "property": "C85",
   "status": "proved",
   "theorems": [
    "M3.Conn.c85_safe",
    "M3.Conn.c85_rest",
    "M3.Conn.c85_delivered",
    "M3.Conn.c85_plain",
    "M3.Conn.c85_write"
   ],
   "note": "Client and server talking to each other"
  },
  {
   "property": "C86",
   "status": "proved",
   "theorems": [
    "M3.c86_header",
    "M3.c86_param",
    "M3.c86_payload",
    "M3.c86_message",
    "M3.c86_layout",
    "M3.c86_param_layout",
    "M3.c86_header_layout",
    "M3.c86_payload_layout",
    "M3.c86_terse",
    "M3.c86_terse_blind"
   ],
   "note": "What String shows"
  },
  {
   "property": "C87",
   "status": "proved",
   "theorems": [
    "M3.Conn.c87_work",
    "M3.Conn.c87_sends",
    "M3.Conn.c87_sends_tight",
    "M3.Conn.c87_goroutines"
   ],
   "note": "How much a connection does"
  },
  {
   "property": "C88",
   "status": "proved",
   "theorems": [
    "M3.Conn.c88_bounded",
    "M3.Conn.c88_rest",
    "M3.Conn.c88_delivered",
    "M3.Conn.c88_calls",
    "M3.Conn.c88_reached",
    "M3.Conn.c88_write",
    "M3.Conn.c88_outcome"
   ],
   "note": "Two undisturbed endpoints come to rest with everything delivered"
  },
  {
   "property": "C89",
   "status": "proved",
   "theorems": [
    "M3.Conn.c89_rest",
    "M3.Conn.c89_occurs",
    "M3.Conn.c89_timeout",
    "M3.Conn.c89_calls",
    "M3.Conn.c89_listening",
    "M3.Conn.c89_healthy",
    "M3.Conn.c89_bounded",
    "M3.Conn.c89_settles"
   ],
   "note": "Every way in which a connection comes to rest"
  },
  {
   "property": "C90",
   "status": "proved",
   "theorems": [
    "M3.Conn.c90_down",
    "M3.Conn.c90_left",
    "M3.Conn.c90_forever",
    "M3.Conn.c90_calls",
    "M3.Conn.c90_occurs",
    "M3.Conn.c90_beat"
   ],
   "note": "What remains of a closed connection"
  },
  {
   "property": "C91",
   "status": "proved",
   "theorems": [
    "M3.c91_parse",
    "M3.c91_window",
    "M3.c91_unchanged",
    "M3.c91_payload",
    "M3.c91_nested",
    "M3.c91_monitor"
   ],
   "note": "A parsed message is a window on the buffer it was parsed from"
  },
  {
   "property": "C92",
   "status": "proved",
   "theorems": [
    "M3.Conn.c92_state",
    "M3.Conn.c92_only",
    "M3.Conn.c92_none",
    "M3.Conn.c92_occurs",
    "M3.Conn.c92_config"
   ],
   "note": "Where a connection has data races and where not"
  },
  {
   "property": "C93",
   "status": "proved",
   "theorems": [
    "M3.Conn.c93_each",
    "M3.Conn.c93_compared",
    "M3.Conn.c93_product",
    "M3.Conn.c93_disabled",
    "M3.Conn.c93_fatal",
    "M3.Conn.c93_confused"
   ],
   "note": "Connections that share a configuration, as those of one Listener"
  },
  {
   "property": "C94",
   "status": "proved",
   "theorems": [
    "M3.Conn.c94_returns",
    "M3.Conn.c94_frequent",
    "M3.Conn.c94_waits",
    "M3.Conn.c94_returns_tight",
    "M3.Conn.c94_frequent_tight",
    "M3.Conn.c94_clock",
    "M3.Conn.c94_exists",
    "M3.Conn.c94_spacing",
    "M3.Conn.c94_intervals",
    "M3.Conn.c94_work",
    "M3.Conn.c94_expired",
    "M3.Conn.c94_open",
    "M3.Conn.c94_spacing_tight",
    "M3.Conn.c94_expired_tight",
    "M3.Conn.c94_open_tight"
   ],
   "note": "What the timers guarantee"
  },
  {
   "property": "C95",
   "status": "proved",
   "theorems": [
    "M3.Conn.c95_safe",
    "M3.Conn.c95_count",
    "M3.Conn.c95_rest",
    "M3.Conn.c95_beats",
    "M3.Conn.c95_delivered"
   ],
   "note": "A session with heartbeats that are answered"
  },
  {
   "property": "C96",
   "status": "proved",
   "theorems": [
    "M3.Conn.c96_safe",
    "M3.Conn.c96_count",
    "M3.Conn.c96_rest",
    "M3.Conn.c96_beats",
    "M3.Conn.c96_delivered",
    "M3.Conn.c96_hurried"
   ],
   "note": "Two endpoints of this library with heartbeats"
  },
  {
   "property": "C97",
   "status": "proved",
   "theorems": [
    "M3.Conn.c97_handled",
    "M3.Conn.c97_answered",
    "M3.Conn.c97_heartbeats"
   ],
   "note": "Every request is answered or refused"
  },
  {
   "property": "C98",
   "status": "proved",
   "theorems": [
    "M3.c98_params",
    "M3.c98_parse",
    "M3.c98_error",
    "M3.c98_unique"
   ],
   "note": "Which error messages.Parse returns"
  },
  {
   "property": "C99",
   "status": "proved",
   "theorems": [
    "M3.Conn.c99_agree",
    "M3.Conn.c99_wrapped",
    "M3.Conn.c99_is",
    "M3.Conn.c99_text"
   ],
   "note": "How the errors of package m3ua can be told apart"
  },
  {
   "property": "C100",
   "status": "proved",
   "theorems": [
    "M3.Conn.c100_dial",
    "M3.Conn.c100_accept",
    "M3.Conn.c100_listen",
    "M3.Conn.c100_closed",
    "M3.Conn.c100_accept_closed",
    "M3.Conn.c100_leak",
    "M3.Conn.c100_panic",
    "M3.Conn.c100_started",
    "M3.Conn.c100_streams",
    "M3.Conn.c100_accept_panic",
    "M3.Conn.c100_accept_started",
    "M3.Conn.c100_accept_streams",
    "M3.Conn.c100_conn"
   ],
   "note": "Dial, Listen and Accept from their beginning"
  },
  {
   "property": "C101",
   "status": "proved",
   "theorems": [
    "M3.c101_outcome",
    "M3.c101_short",
    "M3.c101_body",
    "M3.c101_unknown",
    "M3.c101_header",
    "M3.c101_nil",
    "M3.c101_param"
   ],
   "note": "What a failed UnmarshalBinary leaves behind"
  },
  {
   "property": "C102",
   "status": "proved",
   "theorems": [
    "M3.Conn.c102_never",
    "M3.Conn.c102_calls",
    "M3.Conn.c102_requests",
    "M3.Conn.c102_received",
    "M3.Conn.c102_suspend"
   ],
   "note": "A connection that leaves AspActive is lost, and a client insists"
  },
  {
   "property": "C103",
   "status": "proved",
   "theorems": [
    "M3.Conn.c103_realized",
    "M3.Conn.c103_once",
    "M3.Conn.c103_exact",
    "M3.Conn.c103_storm",
    "M3.Conn.c103_interleaved",
    "M3.Conn.c103_always",
    "M3.Conn.c103_transcript",
    "M3.Conn.c103_received",
    "M3.Conn.c103_plain",
    "M3.Conn.c103_same"
   ],
   "note": "What a connection sends is determined by what it has received"
  },
  {
   "property": "C104",
   "status": "proved",
   "theorems": [
    "M3.c104_bytes",
    "M3.c104_identity",
    "M3.c104_length",
    "M3.c104_wrong",
    "M3.c104_twice",
    "M3.c104_setLength"
   ],
   "note": "What becomes of a datagram that is parsed and marshalled again"
  },
  {
   "property": "C105",
   "status": "proved",
   "theorems": [
    "M3.Conn.c105_why",
    "M3.Conn.c105_open",
    "M3.Conn.c105_each"
   ],
   "note": "Why a connection is closed"
  },
  {
   "property": "C106",
   "status": "proved",
   "theorems": [
    "M3.c106_places",
    "M3.c106_append",
    "M3.c106_harmless"
   ],
   "note": "What appending to the value of a parsed parameter does to the others"
  },
  {
   "property": "C107",
   "status": "proved",
   "theorems": [
    "M3.c107_lengths",
    "M3.c107_values",
    "M3.c107_shared",
    "M3.c107_same",
    "M3.c107_new",
    "M3.c107_stale",
    "M3.c107_broken"
   ],
   "note": "One parameter in several messages"
  },
  {
   "property": "C108",
   "status": "proved",
   "theorems": [
    "M3.c108_new",
    "M3.c108_member",
    "M3.c108_agree",
    "M3.c108_string",
    "M3.c108_multi",
    "M3.c108_missing",
    "M3.c108_first"
   ],
   "note": "Nil parameters"
  },
  {
   "property": "C109",
   "status": "proved",
   "theorems": [
    "M3.c109_protocolData",
    "M3.c109_routingKey",
    "M3.c109_registrationResult",
    "M3.c109_deregistrationResult",
    "M3.c109_malformed",
    "M3.c109_mixed",
    "M3.c109_fresh"
   ],
   "note": "Decoding into a payload variable that already holds something"
  },
  {
   "property": "C110",
   "status": "proved",
   "theorems": [
    "M3.Conn.c110_only",
    "M3.Conn.c110_rest",
    "M3.Conn.c110_reached"
   ],
   "note": "A client and a gateway that sends notifications"
  },
  {
   "property": "C111",
   "status": "proved",
   "theorems": [
    "M3.Conn.c111_payload",
    "M3.Conn.c111_read",
    "M3.Conn.c111_attained"
   ],
   "note": "How much room Read needs"
  },
  {
   "property": "C112",
   "status": "proved",
   "theorems": [
    "M3.c112_end",
    "M3.c112_panic",
    "M3.c112_raw",
    "M3.c112_zero",
    "M3.c112_str",
    "M3.c112_both",
    "M3.c112_back",
    "M3.c112_fuzz"
   ],
   "note": "The program pc-conv and the entry points for fuzzing"
  },
  {
   "property": "C113",
   "status": "proved",
   "theorems": [
    "M3.Conn.c113_setup",
    "M3.Conn.c113_bytes",
    "M3.Conn.c113_read",
    "M3.Conn.c113_outcome",
    "M3.Conn.c113_ways",
    "M3.Conn.c113_beats"
   ],
   "note": "The example client and the example server"
  },
  {
   "property": "C114",
   "status": "proved",
   "theorems": [
    "M3.Conn.c114_final",
    "M3.Conn.c114_closed"
   ],
   "note": "ErrNotEstablished is final"
  },
  {
   "property": "C115",
   "status": "proved",
   "theorems": [
    "M3.Conn.c115_ends",
    "M3.Conn.c115_silent",
    "M3.Conn.c115_served"
   ],
   "note": "A server that ends when Accept fails"
  },
  {
   "property": "C116",
   "status": "proved",
   "theorems": [
    "M3.Conn.c116_ignored",
    "M3.Conn.c116_random",
    "M3.Conn.c116_default"
   ],
   "note": "The heartbeat data in the configuration are never sent"
  },
  {
   "property": "C117",
   "status": "proved",
   "theorems": [
    "M3.Conn.c117_before",
    "M3.Conn.c117_written",
    "M3.Conn.c117_read"
   ],
   "note": "Calls made one after the other"
  },
  {
   "property": "C118",
   "status": "proved",
   "theorems": [
    "M3.Conn.c118_own",
    "M3.Conn.c118_length",
    "M3.Conn.c118_fits",
    "M3.Conn.c118_all",
    "M3.Conn.c118_tight",
    "M3.Conn.c118_unreadable",
    "M3.Conn.c118_write"
   ],
   "note": "What a connection sends by itself, and how long it is"
  },
  {
   "property": "C119",
   "status": "proved",
   "theorems": [
    "M3.Conn.c119_closes",
    "M3.Conn.c119_over",
    "M3.Conn.c119_reads",
    "M3.Conn.c119_after",
    "M3.Conn.c119_occurs"
   ],
   "note": "A failed read of the association is final, and Read does not report it"
  },
  {
   "property": "C120",
   "status": "proved",
   "theorems": [
    "M3.Conn.c120_bound",
    "M3.Conn.c120_waits",
    "M3.Conn.c120_pile",
    "M3.Conn.c120_unbounded",
    "M3.Conn.c120_fatal",
    "M3.Conn.c120_close",
    "M3.Conn.c120_occurs"
   ],
   "note": "A user who does not read"
  },
  {
   "property": "C121",
   "status": "proved",
   "theorems": [
    "M3.Conn.c121_means",
    "M3.Conn.c121_poison",
    "M3.Conn.c121_delivered",
    "M3.Conn.c121_crash",
    "M3.c121_params",
    "M3.c121_accepts",
    "M3.c121_message",
    "M3.c121_bare",
    "M3.c121_length"
   ],
   "note": "A datagram of which only the beginning has arrived"
  },
  {
   "property": "C122",
   "status": "proved",
   "theorems": [
    "M3.Conn.c122_closed",
    "M3.Conn.c122_waits",
    "M3.Conn.c122_result",
    "M3.Conn.c122_occurs"
   ],
   "note": "A connection that fails before the first answer"
  },
  {
   "property": "C123",
   "status": "proved",
   "theorems": [
    "M3.Conn.c123_only",
    "M3.Conn.c123_unfinished",
    "M3.Conn.c123_inactive",
    "M3.Conn.c123_result",
    "M3.Conn.c123_endless"
   ],
   "note": "A peer that refuses the client"
  },
  {
   "property": "C124",
   "status": "proved",
   "theorems": [
    "M3.Conn.c124_only",
    "M3.Conn.c124_rest",
    "M3.Conn.c124_reached"
   ],
   "note": "A client whose peer sends everything back"
  },
  {
   "property": "C125",
   "status": "proved",
   "theorems": [
    "M3.Conn.c125_unfinished",
    "M3.Conn.c125_lost",
    "M3.Conn.c125_endless"
   ],
   "note": "A client that is taken out of service and refused"
  },
  {
   "property": "C126",
   "status": "proved",
   "theorems": [
    "M3.Conn.c126_hangs",
    "M3.Conn.c126_reached"
   ],
   "note": "A client that is taken out of service and let in again"
  }
 ]
}
