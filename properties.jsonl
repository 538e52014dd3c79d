{"id": "C01", "title": "A parameter survives marshal/parse exactly when its value fits the 16-bit length", "statement": "params.Parse(NewParam(tag, data).MarshalBinary()) succeeds and returns the same tag, the same data and Length = 4+len(data) if and only if len(data) <= 65531; for longer data it returns either ErrInvalidLength or a parameter with different data.", "quantifier": "every tag (all 65536) and every byte string of every length", "why_tests_cant": "the claim ranges over all byte strings, including the 64 KiB boundary and beyond; tests only check a handful of 4..28 byte values", "anchors": ["messages/params/params.go: NewParam, MarshalBinary, MarshalTo, Parse, UnmarshalBinary, SetLength, MarshalLen, Padding"]}
{"id": "C02", "title": "Parameter wire layout", "statement": "MarshalBinary of a parameter is exactly: 2-byte big-endian tag, 2-byte big-endian length, the value bytes, then 0..3 zero bytes up to a multiple of four; its byte count equals MarshalLen, and marshalling never panics or fails.", "quantifier": "every parameter value (tag, length field, data of any length)", "why_tests_cant": "padding, offset and byte-order mistakes appear only for particular lengths modulo 4 and particular values; all must be covered", "anchors": ["messages/params/params.go: MarshalBinary, MarshalTo, MarshalLen, Padding, SetLength"]}
{"id": "C03", "title": "Single-parameter parsing accepts exactly the well-formed prefixes", "statement": "params.Parse(b) returns a parameter iff len(b) >= 4 and the 16-bit length field L satisfies 4 <= L <= len(b); then the data is exactly bytes 4..L of b; if len(b) < 4 the error is ErrTooShortToParse, otherwise ErrInvalidLength. It never panics.", "quantifier": "every byte string", "why_tests_cant": "malformed input space is unbounded; a missed bound is a remote crash", "anchors": ["messages/params/params.go: Parse, UnmarshalBinary"]}
{"id": "C04", "title": "Parsing a parameter sequence always terminates without panicking", "statement": "params.ParseMultiParams(b) returns, for every input, either a list or one of ErrTooShortToParse / ErrInvalidLength; it never panics and never loops, every parameter returned is a contiguous slice of the input and the lengths add up to no more than the input.", "quantifier": "every byte string", "why_tests_cant": "termination and absence of panics are statements about all inputs", "anchors": ["messages/params/params.go: ParseMultiParams, Parse, Padding"]}
{"id": "C05", "title": "ParseMultiParams accepts exactly a TLV sequence whose last padding may be cut short", "statement": "ParseMultiParams(b) = ps iff b is the concatenation of the TLV encodings of ps with arbitrary padding bytes, each padded to four bytes except that the final parameter may lack some or all of its padding.", "quantifier": "every byte string and every list of parameters", "why_tests_cant": "an exact language equality cannot be sampled", "anchors": ["messages/params/params.go: ParseMultiParams"]}
{"id": "C06", "title": "Parameter lists round-trip", "statement": "ParseMultiParams(MarshalMultiParams(ps)) = ps for every list of parameters whose length field is consistent with its data.", "quantifier": "every list length and every mixture of value lengths", "why_tests_cant": "alignment errors accumulate only over particular sequences of lengths", "anchors": ["messages/params/params.go: MarshalMultiParams, ParseMultiParams"]}
{"id": "C07", "title": "32-bit parameters deliver the value they were built from", "statement": "For each of AspIdentifier, TrafficModeType, NetworkAppearance, CorrelationID, ErrorCode, Status, LocalRoutingKeyIdentifier, RegistrationStatus, DeregistrationStatus: building the parameter from v, sending it over the wire, parsing it and reading it back yields v, and the parameter carries the tag RFC 4666 assigns to it.", "quantifier": "every 32-bit value, each constructor/accessor pair", "why_tests_cant": "2^32 values per constructor and swapped tags between look-alike constructors", "anchors": ["messages/params/asp-identifier.go", "messages/params/traffic-mode-type.go", "messages/params/network-appearance.go", "messages/params/correlation-id.go", "messages/params/error-code.go", "messages/params/status.go", "messages/params/local-rk-identifier.go", "messages/params/registration-status.go", "messages/params/deregistration-status.go", "messages/params/params.go: newUint32ValParam, decodeUint32ValData"]}
{"id": "C08", "title": "24-bit and 8-bit parameters keep exactly the low bits", "statement": "DestinationPointCode and ConcernedDestination return v mod 2^24 and put a zero mask byte on the wire; CongestionIndications returns its 8-bit level and puts three zero bytes first.", "quantifier": "every 32-bit argument (24-bit params) and every 8-bit argument", "why_tests_cant": "truncation behaviour must hold for all values", "anchors": ["messages/params/destination-pointcode.go", "messages/params/concerned-destination.go", "messages/params/congestion-indications.go", "messages/params/params.go: newUint24ValParam, uint32To24, newUint8ValParam"]}
{"id": "C09", "title": "Multi-valued parameters return the full list in order", "statement": "NewRoutingContext / NewAffectedPointCode / NewOriginatingPointCodeList built from any list of 32-bit values return exactly that list from the plural accessor, and the singular accessor returns its first element, also after a trip over the wire when the list has at most 16382 entries.", "quantifier": "every list of 32-bit values", "why_tests_cant": "unbounded list lengths", "anchors": ["messages/params/routing-context.go", "messages/params/affected-pointcode.go", "messages/params/originating-point-code-list.go", "messages/params/params.go: newMultiUint32ValParam, decodeMultiUint32ValData"]}
{"id": "C10", "title": "When the singular accessors panic", "statement": "Calling RoutingContext() or AffectedPointCode() on a parameter panics exactly when the tag matches and the data length is zero or not a multiple of four; such parameters are produced by parsing peer-supplied bytes. Every other accessor returns for every parameter.", "quantifier": "every parameter", "why_tests_cant": "the panicking inputs are malformed values a test author does not think of", "anchors": ["messages/params/routing-context.go: RoutingContext", "messages/params/affected-pointcode.go: AffectedPointCode"]}
{"id": "C11", "title": "ServiceIndicators padding", "statement": "NewServiceIndicators(si...).ServiceIndicators() is the given list followed by 4 - (n mod 4) zero bytes; in particular it never equals the given list, and a list whose length is already a multiple of four gets four extra zeros.", "quantifier": "every list of 8-bit service indicators", "why_tests_cant": "depends on the list length modulo four; the only unit test has length 3 and compares wire bytes only", "anchors": ["messages/params/service-indicators.go", "messages/params/params.go: newMultiUint8ValParam"]}
{"id": "C12", "title": "User/Cause and Status halves are packed and unpacked consistently", "statement": "NewUserCause(user, cause) yields UserIdentity() = user and UnavailabilityCause() = cause with the cause in the high half of the wire word; Status type/info are the high/low halves of the word given to NewStatus.", "quantifier": "all pairs of 16-bit values / all 32-bit values", "why_tests_cant": "2^32 combinations", "anchors": ["messages/params/user-cause.go", "messages/params/status.go"]}
{"id": "C13", "title": "MTP3 Protocol Data round-trips bit for bit", "statement": "NewProtocolData(opc,dpc,si,ni,mp,sls,data).ProtocolData() returns exactly those seven values for every data; ParseProtocolDataPayload fails with ErrTooShortToParse iff fewer than 12 bytes are given; over the wire the round trip holds whenever len(data) <= 65519.", "quantifier": "every opc, dpc, si, ni, mp, sls and every byte string", "why_tests_cant": "the payload is arbitrary user data of arbitrary length", "anchors": ["messages/params/protocol-data.go"]}
{"id": "C14", "title": "Nested parameters (RoutingKey, RegistrationResult, DeregistrationResult) round-trip", "statement": "The accessor applied to a nested parameter built from a payload returns that payload: RegistrationResult and DeregistrationResult when all members are present, RoutingKey when at least three members are present; with fewer members the accessor reports ErrInvalidLength.", "quantifier": "every combination of present/absent members with arbitrary contents, under the tags of their places", "why_tests_cant": "2^7 presence combinations times unbounded contents", "anchors": ["messages/params/routing-key.go", "messages/params/registration-result.go", "messages/params/deregistration-result.go", "messages/params/params.go: newNestedParam"]}
{"id": "C15", "title": "Accessors never return another parameter's value", "statement": "Every accessor applied to a parameter whose tag is not its own returns the zero value (0, nil, \"\") or ErrInvalidType and never panics.", "quantifier": "every parameter with a foreign tag, every accessor", "why_tests_cant": "all 65536 tags times all data", "anchors": ["messages/params/*.go accessors"]}
{"id": "C16", "title": "Common header round-trips and carries the payload unchanged", "statement": "ParseHeader of a marshalled header returns the same version, reserved, class, type, length and payload; ParseHeader fails iff fewer than 8 bytes are given.", "quantifier": "every header value and every byte string", "why_tests_cant": "unbounded payloads", "anchors": ["messages/header.go"]}
{"id": "C17", "title": "Every constructed message has the RFC 4666 wire layout", "statement": "For each of the 19 message constructors, MarshalBinary of the constructed message is: version 1, reserved 0, the class and type RFC 4666 assigns, a 32-bit total length, then the TLVs of the non-nil parameters in the order of the constructor's documentation, and nothing else.", "quantifier": "every combination of present/absent parameters with arbitrary contents, for all 19 message types", "why_tests_cant": "2^6 presence combinations times unbounded contents times 19 types", "anchors": ["messages/data.go", "messages/duna.go", "messages/dava.go", "messages/daud.go", "messages/scon.go", "messages/dupu.go", "messages/drst.go", "messages/asp-up.go", "messages/asp-up-ack.go", "messages/asp-down.go", "messages/asp-down-ack.go", "messages/heartbeat.go", "messages/heartbeat-ack.go", "messages/asp-active.go", "messages/asp-active-ack.go", "messages/asp-inactive.go", "messages/asp-inactive-ack.go", "messages/error.go", "messages/notify.go"]}
{"id": "C18", "title": "Every constructed message round-trips through messages.Parse", "statement": "messages.Parse of the bytes of a constructed message yields a message of the same Go type with the same parameters, for each of the 19 message types, provided the parameters carry the tags of their slots and at most 65531 bytes of data each.", "quantifier": "every combination of parameters for every message type", "why_tests_cant": "unbounded parameter contents and presence combinations", "anchors": ["messages/data.go", "messages/duna.go", "messages/dava.go", "messages/daud.go", "messages/scon.go", "messages/dupu.go", "messages/drst.go", "messages/asp-up.go", "messages/asp-up-ack.go", "messages/asp-down.go", "messages/asp-down-ack.go", "messages/heartbeat.go", "messages/heartbeat-ack.go", "messages/asp-active.go", "messages/asp-active-ack.go", "messages/asp-inactive.go", "messages/asp-inactive-ack.go", "messages/error.go", "messages/notify.go", "messages/message.go: Parse"]}
{"id": "C19", "title": "Generic messages round-trip", "statement": "messages.New(ver, class, type, params...) marshalled and parsed with ParseGeneric yields the same version, class, type and parameter list; messages.Parse yields a Generic with them exactly when (class,type) does not select a known type.", "quantifier": "every version/class/type and every list of non-nil parameters with at most 65531 bytes of data each", "why_tests_cant": "unbounded lists, 2^24 header combinations", "anchors": ["messages/generic.go", "messages/message.go: Parse"]}
{"id": "C20", "title": "messages.Parse is total", "statement": "messages.Parse(b) returns a message or an error for every byte string; it never panics, and fails for every input shorter than 8 bytes.", "quantifier": "every byte string", "why_tests_cant": "network-facing: the input is chosen by the peer", "anchors": ["messages/message.go: Parse", "messages/header.go: ParseHeader", "messages/params/params.go: ParseMultiParams"]}
{"id": "C21", "title": "Which Go type messages.Parse selects", "statement": "The selected type depends only on (class*16 mod 256) OR type: for class and type below 16 it is the RFC 4666 type and Generic otherwise; outside that range distinct (class,type) pairs are confused with known ones (for example class 17 type 1 and class 0 type 17 are parsed as Data). MessageClass() and MessageType() of a typed message are the RFC numbers of that type even where its header has others.", "quantifier": "all 65536 class/type byte pairs", "why_tests_cant": "65536 pairs; collisions are invisible to tests that use valid pairs", "anchors": ["messages/message.go: Parse (combine)"]}
{"id": "C22", "title": "MarshalTo respects the caller's buffer", "statement": "MarshalTo(b) fails with ErrTooShortToMarshalBinary and leaves b untouched iff len(b) < MarshalLen(); otherwise it writes exactly the MarshalBinary bytes to the first MarshalLen() bytes of b and leaves the rest untouched.", "quantifier": "every message value and every destination buffer (length, capacity and contents)", "why_tests_cant": "buffer sizes and contents are unbounded; off-by-one writes corrupt neighbouring data", "anchors": ["messages/data.go", "messages/duna.go", "messages/dava.go", "messages/daud.go", "messages/scon.go", "messages/dupu.go", "messages/drst.go", "messages/asp-up.go", "messages/asp-up-ack.go", "messages/asp-down.go", "messages/asp-down-ack.go", "messages/heartbeat.go", "messages/heartbeat-ack.go", "messages/asp-active.go", "messages/asp-active-ack.go", "messages/asp-inactive.go", "messages/asp-inactive-ack.go", "messages/error.go", "messages/notify.go", "messages/generic.go", "messages/header.go"]}
{"id": "C23", "title": "Parameters a message does not define are rejected; defined ones never are", "statement": "For a typed message, given a parsable parameter sequence, parsing fails with ErrInvalidParameter iff some parameter's tag is not one of the message's; Generic messages accept any tags.", "quantifier": "every parameter sequence, every message type", "why_tests_cant": "unbounded sequences of tags", "anchors": ["messages/data.go", "messages/duna.go", "messages/dava.go", "messages/daud.go", "messages/scon.go", "messages/dupu.go", "messages/drst.go", "messages/asp-up.go", "messages/asp-up-ack.go", "messages/asp-down.go", "messages/asp-down-ack.go", "messages/heartbeat.go", "messages/heartbeat-ack.go", "messages/asp-active.go", "messages/asp-active-ack.go", "messages/asp-inactive.go", "messages/asp-inactive-ack.go", "messages/error.go", "messages/notify.go"]}
{"id": "C24", "title": "Last duplicate wins", "statement": "If a parameter occurs several times in a typed message, the parsed message holds the last occurrence; parameters that do not occur are nil; order of different parameters is irrelevant.", "quantifier": "every parameter sequence, every message type", "why_tests_cant": "unbounded sequences and permutations", "anchors": ["messages/data.go", "messages/duna.go", "messages/dava.go", "messages/daud.go", "messages/scon.go", "messages/dupu.go", "messages/drst.go", "messages/asp-up.go", "messages/asp-up-ack.go", "messages/asp-down.go", "messages/asp-down-ack.go", "messages/heartbeat.go", "messages/heartbeat-ack.go", "messages/asp-active.go", "messages/asp-active-ack.go", "messages/asp-inactive.go", "messages/asp-inactive-ack.go", "messages/error.go", "messages/notify.go"]}
{"id": "C25", "title": "Re-encoding a parsed message is stable", "statement": "If messages.Parse(b) returns m, then m marshals without error and parsing the result yields m again (same type, header fields and parameters).", "quantifier": "every byte string", "why_tests_cant": "the set of accepted inputs is infinite (duplicates, reordered parameters, cut padding, wrong lengths)", "anchors": ["messages/data.go", "messages/duna.go", "messages/dava.go", "messages/daud.go", "messages/scon.go", "messages/dupu.go", "messages/drst.go", "messages/asp-up.go", "messages/asp-up-ack.go", "messages/asp-down.go", "messages/asp-down-ack.go", "messages/heartbeat.go", "messages/heartbeat-ack.go", "messages/asp-active.go", "messages/asp-active-ack.go", "messages/asp-inactive.go", "messages/asp-inactive-ack.go", "messages/error.go", "messages/notify.go", "messages/message.go: Parse"]}
{"id": "C26", "title": "Marshalling is repeatable", "statement": "Calling MarshalBinary twice on the same message yields the same bytes, and the first call changes nothing observable except the cached Payload.", "quantifier": "every message value", "why_tests_cant": "holds for all message states, not only freshly constructed ones", "anchors": ["messages/data.go", "messages/duna.go", "messages/dava.go", "messages/daud.go", "messages/scon.go", "messages/dupu.go", "messages/drst.go", "messages/asp-up.go", "messages/asp-up-ack.go", "messages/asp-down.go", "messages/asp-down-ack.go", "messages/heartbeat.go", "messages/heartbeat-ack.go", "messages/asp-active.go", "messages/asp-active-ack.go", "messages/asp-inactive.go", "messages/asp-inactive-ack.go", "messages/error.go", "messages/notify.go"]}
{"id": "C27", "title": "UnmarshalBinary into a used value", "statement": "UnmarshalBinary into a fresh value yields exactly the parameters in the bytes; into a used value, parameters absent from the bytes keep their old value, and Generic appends to its old parameter list.", "quantifier": "every old value and every byte string", "why_tests_cant": "needs all histories of reuse", "anchors": ["messages/data.go", "messages/duna.go", "messages/dava.go", "messages/daud.go", "messages/scon.go", "messages/dupu.go", "messages/drst.go", "messages/asp-up.go", "messages/asp-up-ack.go", "messages/asp-down.go", "messages/asp-down-ack.go", "messages/heartbeat.go", "messages/heartbeat-ack.go", "messages/asp-active.go", "messages/asp-active-ack.go", "messages/asp-inactive.go", "messages/asp-inactive-ack.go", "messages/error.go", "messages/notify.go", "messages/generic.go: UnmarshalBinary"]}
{"id": "C28", "title": "Encodings are unambiguous", "statement": "Two constructed messages of the known types with equal bytes are the same message (same type, same parameters), provided the parameters carry the tags of their slots and at most 65531 bytes of data each.", "quantifier": "all pairs of constructed messages", "why_tests_cant": "pairs of infinite families", "anchors": ["messages/data.go", "messages/duna.go", "messages/dava.go", "messages/daud.go", "messages/scon.go", "messages/dupu.go", "messages/drst.go", "messages/asp-up.go", "messages/asp-up-ack.go", "messages/asp-down.go", "messages/asp-down-ack.go", "messages/heartbeat.go", "messages/heartbeat-ack.go", "messages/asp-active.go", "messages/asp-active-ack.go", "messages/asp-inactive.go", "messages/asp-inactive-ack.go", "messages/error.go", "messages/notify.go", "messages/message.go: Parse"]}
{"id": "C29", "title": "The length field of a received message is never checked", "statement": "messages.Parse succeeds independently of the 32-bit length field: changing it changes only Header.Length of the result; in particular a message whose length field disagrees with the received byte count is accepted.", "quantifier": "every byte string and every replacement length", "why_tests_cant": "all lengths", "anchors": ["messages/header.go: UnmarshalBinary", "messages/message.go: Parse"]}
{"id": "C30", "title": "The length field of a constructed message is right", "statement": "The length field written by a constructor equals the number of bytes marshalled and is a multiple of 4, for every message whose size is below 2^32.", "quantifier": "every constructed message", "why_tests_cant": "unbounded contents", "anchors": ["messages/data.go", "messages/duna.go", "messages/dava.go", "messages/daud.go", "messages/scon.go", "messages/dupu.go", "messages/drst.go", "messages/asp-up.go", "messages/asp-up-ack.go", "messages/asp-down.go", "messages/asp-down-ack.go", "messages/heartbeat.go", "messages/heartbeat-ack.go", "messages/asp-active.go", "messages/asp-active-ack.go", "messages/asp-inactive.go", "messages/asp-inactive-ack.go", "messages/error.go", "messages/notify.go", "SetLength methods"]}
{"id": "C31", "title": "Point codes survive raw -> string -> raw", "statement": "For each variant 3-8-3, 4-3-7, 4-3-4-3, 5-4-5, 6-6-2, 6-8, 7-4-5, 7-7, 8-8-8: NewPointCodeFrom(NewPointCode(raw, v).String(), v).Uint32() = raw mod 2^bits, and NewPointCode masks raw to that.", "quantifier": "every 32-bit raw value, nine variants", "why_tests_cant": "2^32 values per variant; tests check three", "anchors": ["pc/pc.go: NewPointCode, NewPointCodeFrom, String, convRawToStr, convStrToRaw"]}
{"id": "C32", "title": "The formatted point code is the positional representation", "statement": "NewPointCode(raw, v).String() is the dash-separated decimal list c1-...-ck with ci < 2^wi and sum ci * 2^(widths to the right) = raw mod 2^bits, where w1..wk are the digits of the variant's name.", "quantifier": "every 32-bit raw value, nine variants", "why_tests_cant": "2^32 values per variant", "anchors": ["pc/pc.go: convRawToStr, Variant.slice, BitLength"]}
{"id": "C33", "title": "Variant 4-4-6 does not work", "statement": "The advertised variant 4-4-6 maps every raw value to 0 and \"0-0-0\", and every parsable string to 0; the round trip of C31 therefore fails for every raw value not divisible by 2^14.", "quantifier": "every raw value and every string", "why_tests_cant": "a statement about all values of an untested variant", "anchors": ["pc/pc.go: Variant446, BitLength"]}
{"id": "C34", "title": "ConvertTo keeps the point code, not the variant", "statement": "ConvertTo(v) never changes Uint32() or Variant(); on success String() is the v-representation of the raw value; on failure nothing changes; with the same variant it is idempotent.", "quantifier": "every point code and every variant sequence", "why_tests_cant": "all histories of conversions", "anchors": ["pc/pc.go: ConvertTo, String, Variant, Uint32"]}
{"id": "C35", "title": "NewPointCodeFrom accepts exactly matching digit groups and does not check their range", "statement": "NewPointCodeFrom(s, v) is non-nil iff v is not empty and s splits at '-' into as many groups as v, each an optionally '+'-signed decimal that fits int64; when every group is below its width the value is the positional value, when a group is too large the raw value overlaps neighbouring groups (and can exceed the variant's bit length).", "quantifier": "every string and every variant", "why_tests_cant": "unbounded strings", "anchors": ["pc/pc.go: NewPointCodeFrom, convStrToRaw"]}
{"id": "C36", "title": "Point codes are distinguished by their formatted string", "statement": "For the nine working variants, two raw values below 2^bits with the same formatted string are equal.", "quantifier": "all pairs of raw values", "why_tests_cant": "2^48 pairs", "anchors": ["pc/pc.go: convRawToStr"]}
{"id": "C37", "title": "Enabling logging hangs", "statement": "EnableLogging never returns, whatever its argument, and once it has taken the mutex every EnableLogging, DisableLogging, SetLogger or internal log call, pending or later, blocks forever; without EnableLogging all of them return.", "quantifier": "every sequence and interleaving of logging calls", "why_tests_cant": "non-termination cannot be observed by a terminating test; needs all schedules", "anchors": ["logger.go: EnableLogging, SetLogger, DisableLogging, setLogger, logf"]}
{"id": "C38", "title": "Config constructors and setters store what they are given", "statement": "NewConfig / NewClientConfig / NewServerConfig / Set* produce parameters that read back the given values; setters change only their own field; parameters not set stay nil and do not appear on the wire.", "quantifier": "all argument values and all sequences of setter calls", "why_tests_cant": "all histories of setter calls", "anchors": ["config.go"]}
{"id": "C39", "title": "Opening a connection without HeartbeatInfo panics; with an unknown network it fails cleanly", "statement": "Dial and Accept panic iff the configuration has a nil HeartbeatInfo (as NewConfig leaves it); otherwise Dial/Listen fail before touching SCTP iff the network is not one of m3ua, m3ua4, m3ua6; a zero heartbeat interval disables heartbeats.", "quantifier": "every configuration and every network string", "why_tests_cant": "all configurations", "anchors": ["client.go: Dial", "server.go: Accept, Listen", "conn.go: netMap", "config.go: NewConfig"]}
{"id": "C40", "title": "DATA uses streams 1..max, everything else uses stream 0", "statement": "Write and WritePD choose a stream between 1 and MaxMessageStreamID() for every random draw when at least two outbound streams were negotiated (and panic with exactly one stream); every non-Transfer message sent by the library goes out on stream 0 with PPID 3.", "quantifier": "every negotiated stream count and every random draw; every execution", "why_tests_cant": "random draws and all histories", "anchors": ["conn.go: chooseStreamID, Write, WritePD, WriteSignal, MaxMessageStreamID", "client.go: Dial", "server.go: Accept"]}
{"id": "C41", "title": "Write sends exactly one DATA built from the configuration", "statement": "A successful Write(b) in state AspActive hands exactly one datagram to SCTP: the RFC 4666 DATA layout with the configured network appearance, routing contexts, correlation id, point codes, SI, NI, MP, SLS and payload b; in any other state it sends nothing and returns ErrNotEstablished; the count returned is the count SCTP reports plus the datagram length, so twice the datagram length when SCTP reports full writes, never the number of payload bytes.", "quantifier": "every configuration, payload and state", "why_tests_cant": "all configurations and payloads; net.Conn's contract is about all calls", "anchors": ["conn.go: Write, WriteToStream, WritePD, WritePDToStream"]}
{"id": "C42", "title": "What Read and ReadPD return", "statement": "Read(p) returns n = length of the next payload and fills the first min(n, len(p)) bytes of p; if the payload is longer than p the rest is lost and n exceeds len(p); outside AspActive or after Close with nothing queued it returns ErrNotEstablished; ReadPD returns the complete payload.", "quantifier": "every buffer size and every payload, every state", "why_tests_cant": "all sizes", "anchors": ["conn.go: Read, ReadPD"]}
{"id": "C43", "title": "A DATA sent by one endpoint is delivered intact by the other", "statement": "The datagram that Write(b) hands to SCTP is understood by the receiver as DATA with exactly one payload: b with the sender's point codes, SI, NI, MP, SLS. Once received, its handler starts exactly one goroutine for it (unless the context is done), which queues exactly that payload for Read if it finds the state AspActive, and otherwise reports the message as unexpected. (Limits on what can be received: C64; from the queue to Read: C66, C42.)", "quantifier": "every configuration whose optional parameters have the right tags, every payload that fits a parameter, every execution", "why_tests_cant": "end-to-end over all values", "anchors": ["conn.go: WriteToStream", "transfer.go: handleData", "fsm.go: monitor", "messages/message.go: Parse"]}
{"id": "C44", "title": "Error replies", "statement": "Every error reported by a goroutine is picked up by the monitor at once. For each protocol error the monitor sends exactly one Error message with the RFC 4666 code before doing anything else: invalid version -> 1, unsupported class -> 3 and unsupported message -> 4 with the first 40 bytes of the offending message, unexpected message -> 6 with configured routing contexts, network appearance and the own point code, wrong stream -> 9, missing ASP id -> 14; if sending the reply fails, or for any other error, where there is no reply, it closes the connection and stops.", "quantifier": "every error value and every offending message", "why_tests_cant": "all messages", "anchors": ["errors.go: handleErrors, first40Octets"]}
{"id": "C45", "title": "A heartbeat is answered with its own data", "statement": "In AspActive, a well-formed Heartbeat is answered by exactly one Heartbeat Ack carrying the same heartbeat data bytes and nothing else; in any other state no ack is sent and an Unexpected Message error is.", "quantifier": "every heartbeat message and state", "why_tests_cant": "arbitrary heartbeat data", "anchors": ["asptm.go: handleHeartbeat"]}
{"id": "C46", "title": "State() only changes as the received messages dictate", "statement": "As long as nobody closes the connection, the state is the fold of the received decodable version-1 messages: ASP Up / ASP Up Ack / ASP Inactive / ASP Inactive Ack -> Inactive, ASP Active / ASP Active Ack -> Active, ASP Down / ASP Down Ack -> Down, all others leave it; this holds whether or not the message was expected in the current state.", "quantifier": "every sequence of received datagrams and every interleaving of goroutines", "why_tests_cant": "all histories and schedules", "anchors": ["fsm.go: handleSignals, handleStateUpdate, monitor", "aspsm.go", "asptm.go"]}
{"id": "C47", "title": "Unexpected messages are reported but still obeyed", "statement": "A message that is not expected in the current state is answered with an Error reply and nevertheless moves the state as in C46: a peer can take a connection from Down to Active with a single ASP Active (Ack), without any ASP Up exchange.", "quantifier": "every state and message", "why_tests_cant": "all state/message combinations and schedules", "anchors": ["fsm.go: handleSignals", "asptm.go: handleAspActive, handleAspActiveAck"]}
{"id": "C48", "title": "One received message is processed at a time", "statement": "At any time at most one received message is between being read from SCTP and having its state change applied; the next message is read only after that. (The delivery of DATA payloads is the only part that runs concurrently.)", "quantifier": "every interleaving of goroutines and every input", "why_tests_cant": "all schedules", "anchors": ["fsm.go: monitor, handleSignals"]}
{"id": "C49", "title": "A single undecodable or wrong-version datagram silences the connection", "statement": "After receiving one datagram that messages.Parse rejects or whose version is not 1, the connection never reads another datagram, in any continuation, although the code comment says undecodable packets are ignored.", "quantifier": "every such datagram, every prior history and every continuation", "why_tests_cant": "a permanent stall is a statement about all futures", "anchors": ["fsm.go: monitor, handleSignals"]}
{"id": "C50", "title": "Payloads are neither invented nor duplicated", "statement": "For every payload, the number of times Read/ReadPD has returned it never exceeds the number of received DATA messages that carry it.", "quantifier": "every input and every interleaving", "why_tests_cant": "all schedules", "anchors": ["transfer.go: handleData", "conn.go: Read, ReadPD", "fsm.go: handleSignals"]}
{"id": "C51", "title": "Payload order is not guaranteed", "statement": "For every configuration and both modes, however many DATA messages of at most 1500 bytes arrive one after the other, and for every permutation of their payloads, there is an execution in which all of them are received in the order of arrival and ReadPD returns the payloads in the order of the permutation. In particular two DATA messages can be returned in the opposite order.", "quantifier": "every configuration, both modes, every sequence of DATA messages, every permutation; existence of a schedule (negation of the ordering expectation)", "why_tests_cant": "a test that passes shows nothing; the reordering needs a particular schedule", "anchors": ["fsm.go: handleSignals (go c.handleData)", "transfer.go: handleData"]}
{"id": "C52", "title": "No unsolicited acknowledgements", "statement": "The number of ASP Up Ack, ASP Down Ack, ASP Active Ack, ASP Inactive Ack messages the library has sent on its own never exceeds the number of ASP Up, ASP Down, ASP Active, ASP Inactive messages received, respectively; likewise for Heartbeat Ack and Heartbeat.", "quantifier": "every input and every interleaving, any mode", "why_tests_cant": "all schedules", "anchors": ["aspsm.go", "asptm.go", "fsm.go"]}
{"id": "C53", "title": "Dial/Accept succeed only after activation", "statement": "If Dial or Accept returns a connection, a decodable version-1 ASP Active or ASP Active Ack message was received before. Otherwise, if the time is over or the connection was closed before it was established, Dial and Accept close the SCTP association before they return the respective error.", "quantifier": "every input and every interleaving", "why_tests_cant": "all schedules", "anchors": ["client.go: Dial", "server.go: Accept", "fsm.go: handleStateUpdateAsClient, handleStateUpdateAsServer"]}
{"id": "C54", "title": "Re-activation hangs the connection", "statement": "Once Dial/Accept has stopped waiting, if the state ever changes from non-active to AspActive again, then from that moment the connection is blocked for ever: the state stays AspActive, nothing is received or reported, nobody can look at the state or close the connection, and no Read, ReadPD, Write, WriteToStream, WritePD, WritePDToStream, State or Close call returns unless it had looked at the state (or locked it) before; in particular no such call made later ever returns. This happens for every configuration and mode, e.g. with an ASP Inactive Ack followed by an ASP Active Ack.", "quantifier": "every history reaching the second activation and every continuation; existence for every configuration", "why_tests_cant": "non-termination over all futures", "anchors": ["fsm.go: handleStateUpdate, handleStateUpdateAsClient, handleStateUpdateAsServer", "conn.go: State, Close"]}
{"id": "C55", "title": "Close while a message is in flight can crash the process", "statement": "For every configuration there are executions in which a user's Close during the handling of a received DATA message (or ASP Inactive Ack), or, without any call of the user, the loss of the association during it, makes the process panic (send on or close of a closed channel). But once the handling of everything received has come to rest, as long as nothing more is received the process does not panic, whatever the user does: Close may be called any number of times, concurrently and together with other calls.", "quantifier": "existence for every configuration; for the second part every reachable state at rest and every continuation without reception", "why_tests_cant": "a specific race", "anchors": ["conn.go: Close", "fsm.go: handleStateUpdate", "transfer.go: handleData"]}
{"id": "C56", "title": "A peer can crash the process with one message", "statement": "Whenever a connection is in AspActive and waits for the next datagram, any DATA message without a Protocol Data parameter, and any Heartbeat Ack without Heartbeat Data, can make the process panic (nil dereference in a background goroutine); a DATA handler that has seen AspActive can then do nothing else. Conversely, every panic is due to such a message, or to Write/WritePD on a connection with maxMessageStreamID 0, or happens after a Close (C55).", "quantifier": "every reachable state and every such message; every execution for the converse", "why_tests_cant": "all messages", "anchors": ["transfer.go: handleData", "asptm.go: handleHeartbeatAck"]}
{"id": "C57", "title": "A heartbeat ack with wrong data still counts", "statement": "A Heartbeat Ack whose data differ from the last heartbeat produces an Error reply but is nevertheless treated as an acknowledgement: the heartbeat timer is satisfied exactly as for a matching ack.", "quantifier": "every ack content", "why_tests_cant": "all ack contents", "anchors": ["fsm.go: handleSignals (HeartbeatAck case)", "asptm.go: heartbeat, handleHeartbeatAck"]}
{"id": "C58", "title": "A heartbeat ack nobody waits for wedges the connection", "statement": "With heartbeats disabled, after receiving any decodable Heartbeat Ack no further datagram is ever read, in every continuation.", "quantifier": "every such ack, every history and continuation", "why_tests_cant": "permanent stall over all futures", "anchors": ["fsm.go: handleSignals (HeartbeatAck case)", "asptm.go: heartbeat"]}
{"id": "C59", "title": "Client and server complete the handshake", "statement": "A client (Dial) and a server (Accept) of this library are connected by an association that neither loses nor changes nor reorders messages. Heartbeats are disabled on both sides, the configured parameters were built with the constructors of package params, and the ASP Active and ASP Active Ack messages fit the 1500 byte read buffer. Unless a timer expires, the context is cancelled, or SCTP fails, then whatever the interleaving: neither process panics; the client hands exactly ASP Up and ASP Active to SCTP and the server exactly ASP Up Ack and ASP Active Ack, each with the configured parameters, on stream 0 with payload protocol identifier 3, alternately and without any Error; every execution ends within 78 steps; and when it has ended, both sides are AspActive, Dial and Accept have each returned the connection once, and nothing is left in transit.", "quantifier": "all pairs of configurations (within the read buffer) and all interleavings of all goroutines of both endpoints", "why_tests_cant": "all schedules and configurations; tests see a handful of schedules", "anchors": ["client.go: Dial", "server.go: Accept", "fsm.go", "aspsm.go", "asptm.go"]}
{"id": "C60", "title": "State() only ever reports Down, Inactive or Active", "statement": "StateSCTPCDI and StateSCTPRI are never the state of a connection, so State() never reports loss of the SCTP association.", "quantifier": "every execution", "why_tests_cant": "all histories", "anchors": ["fsm.go", "conn.go: State"]}
{"id": "C61", "title": "StreamID() is always 0 and the stream check never fires", "statement": "The stream id of a connection is 0 in every reachable state, so no message is ever rejected with an invalid-stream error.", "quantifier": "every execution", "why_tests_cant": "all histories", "anchors": ["conn.go: StreamID", "aspsm.go", "client.go", "server.go"]}
{"id": "C62", "title": "Nothing is transmitted by Write outside AspActive", "statement": "Every DATA datagram that Write/WritePD handed to SCTP was preceded by the caller observing the state AspActive, and a state of AspActive is reached only by receiving ASP Active or ASP Active Ack.", "quantifier": "every execution", "why_tests_cant": "all schedules", "anchors": ["conn.go: WriteToStream, WritePDToStream"]}
{"id": "C63", "title": "Heartbeat expiry tears the connection down", "statement": "When the heartbeat timer expires and the monitor picks up the expiry, the connection is closed and no further datagram is read or written by the monitor.", "quantifier": "every execution", "why_tests_cant": "all schedules", "anchors": ["asptm.go: heartbeat", "errors.go: handleErrors", "fsm.go: monitor"]}
{"id": "C64", "title": "A DATA larger than 1500 bytes is never delivered", "statement": "The receiver reads at most 1500 bytes at once. The first 1500 bytes of a datagram of Write whose Protocol Data parameter ends after byte 1500 carry no payload; if the parameter starts before byte 1500 they are rejected by Parse and the receiving connection never reads anything again (C49); if it starts exactly there they are accepted as DATA without Protocol Data (C56).", "quantifier": "every configuration and payload", "why_tests_cant": "all sizes", "anchors": ["fsm.go: monitor (buf)"]}
{"id": "C65", "title": "DisableLogging silences the current logger for good", "statement": "A logger whose output DisableLogging discarded, including a user's own logger installed with SetLogger, is never written to again by the library, even when it is installed again with SetLogger. Every other line goes to the logger that is current when it is printed, and SetLogger(nil) installs a new one that is not silenced.", "quantifier": "every sequence and interleaving of logging calls", "why_tests_cant": "quantifies over all later histories", "anchors": ["logger.go: DisableLogging, SetLogger, logf"]}
{"id": "C66", "title": "Payloads are read in the order in which they were queued", "statement": "The payloads taken by Read and ReadPD so far, followed by those still waiting, are exactly the payloads queued by the handlers of DATA messages, in the order of queueing; only when the context is done can some of them be missing. So nothing is lost, duplicated or reordered between the handlers and Read, and after Close the readers get everything that was queued before they are told that the connection is closed.", "quantifier": "every execution", "why_tests_cant": "all schedules, any number of readers", "anchors": ["transfer.go: handleData", "conn.go: Read, ReadPD"]}
{"id": "C67", "title": "Why errors are reported", "statement": "Every error reported to the monitor has a reason: 'invalid version v' a received decodable datagram with that version, v /= 1; 'unsupported message m' a received version-1 datagram that decodes to m, where m is an SSNM message or of unknown class or type; 'unexpected message m' a received version-1 datagram that decodes to m, where m is neither Error nor Notify nor unsupported; 'failed to peel off' a received DATA with Protocol Data shorter than 12 bytes; a write, random-number or heartbeat error the failure of that goroutine's last operation. No other error is ever reported, so the Error codes 3 (class), 9 (stream) and 14 (ASP id) are never sent. An unsupported message is reported exactly once and does nothing else.", "quantifier": "every execution, every received datagram", "why_tests_cant": "all histories and schedules; absence of certain replies is universal", "anchors": ["fsm.go: handleSignals, monitor", "aspsm.go", "asptm.go", "transfer.go: handleData", "management.go", "errors.go"]}
{"id": "C68", "title": "Parameters of variable length deliver the bytes they were built from", "statement": "For INFO String, Heartbeat Data and Diagnostic Information: building the parameter from any bytes (at most 65531), sending it over the wire, parsing it and reading it back yields these bytes, under the tag RFC 4666 assigns.", "quantifier": "every byte string of at most 65531 bytes", "why_tests_cant": "unbounded contents and swapped tags between look-alike constructors", "anchors": ["messages/params/info-string.go", "messages/params/heartbeat-data.go", "messages/params/diagnostic-information.go", "messages/params/params.go: newVariableLenValParam"]}
{"id": "C69", "title": "What accessors make of any peer-supplied value", "statement": "Applied to a parameter with their own tag and any value: the 32-bit accessors return the number the four bytes denote, and 0 if the value has not exactly four bytes; the accessors of parts return its high or low 16 bits, low 24 or 8 bits; the list accessors return the 32-bit numbers in order, and nothing if the length is not a multiple of four; the byte accessors return the value itself; ProtocolData() accepts exactly values of at least 12 bytes and reads them at the positions of RFC 4666. None of these panics.", "quantifier": "every parameter value", "why_tests_cant": "malformed values of all lengths", "anchors": ["messages/params/*.go accessors", "messages/params/params.go: decodeUint32ValData, decodeMultiUint32ValData"]}
{"id": "C70", "title": "What the accessors of nested parameters make of any peer-supplied value", "statement": "RoutingKey() on any value: an error if it is not a parameter sequence, ErrInvalidLength for fewer than three parameters, ErrInvalidType if one of them does not belong into a routing key, otherwise each member is the last one given. RegistrationResult() takes exactly three parameters by position, whatever their tags. DeregistrationResult() takes exactly two parameters, by tag, and ignores others. None of these panics.", "quantifier": "every parameter value", "why_tests_cant": "unbounded contents; malformed values", "anchors": ["messages/params/routing-key.go", "messages/params/registration-result.go", "messages/params/deregistration-result.go"]}
{"id": "C71", "title": "What the owner of the association does, and which goroutine sends what", "statement": "For every state reported to it the monitor enters the state; a client then sends exactly one ASP Up (in AspDown) or ASP Active (in AspInactive) with the configured parameters, a server sends nothing; then exactly one datagram is read and handed to a goroutine of its own, and only then does the monitor turn to the next report. A failing read closes the connection. Cancelling the context, when noticed, closes the connection and does nothing else. Error messages, ASP Up and ASP Active come from the monitor only, the latter from clients only; each acknowledgement comes from the handler of the message it acknowledges; heartbeats come from the heartbeat goroutine.", "quantifier": "every execution, every state, both modes", "why_tests_cant": "all interleavings with handlers, heartbeats and user calls", "anchors": ["fsm.go: monitor, handleStateUpdate", "conn.go: Close", "aspsm.go", "asptm.go"]}
{"id": "C72", "title": "Every understood message lets the connection go on", "statement": "The handler of a decodable version-1 message, when it ends, has reported exactly one state to the monitor (which then reads the next datagram), unless the context was done when it started, in which case it did nothing at all. The handler of any other datagram never reports a state.", "quantifier": "every message and every execution", "why_tests_cant": "a single forgotten report wedges the connection only under particular messages", "anchors": ["fsm.go: handleSignals"]}
{"id": "C73", "title": "What the heartbeat goroutine does", "statement": "It does nothing before ASP Active or ASP Active Ack was received, unless the library has closed the association before. With heartbeats enabled it then goes through rounds: draw 128 random bytes, send them in a Heartbeat on stream 0, remember them, wait for an acknowledgement, wait for the interval. It ends exactly when no random bytes can be had or the heartbeat cannot be sent (which it reports as errors), when the context is done or the connection closed, or when the acknowledgement is late (reported as heartbeat expired).", "quantifier": "every execution", "why_tests_cant": "unbounded number of rounds, timing, interleavings", "anchors": ["asptm.go: heartbeat", "fsm.go: monitor, handleStateUpdate"]}
{"id": "C74", "title": "Close", "statement": "Close closes the SCTP association exactly once and returns whether that succeeded; unless the state is AspDown already it also sets it to AspDown and closes the connection's channels. Once the library has closed the association no datagram is sent or received any more.", "quantifier": "every execution", "why_tests_cant": "all interleavings of Close with everything else", "anchors": ["conn.go: Close", "fsm.go: monitor"]}
{"id": "C75", "title": "Marshalling into a buffer of the caller", "statement": "MarshalTo writes exactly the bytes it announces and leaves the rest of the buffer alone: a header or a Protocol Data payload refuses a buffer that is too short and otherwise writes its encoding; a parameter looks only at the capacity of the buffer (panicking if it is too small), writes tag, length and data, and never writes padding, so the result is the encoding of MarshalBinary if and only if the padding bytes of the buffer were zero before.", "quantifier": "every header, payload and parameter, every buffer with any length, capacity and contents", "why_tests_cant": "any contents of the buffer; code that reuses buffers meets the dirty ones", "anchors": ["messages/params/params.go: Param.MarshalTo", "messages/header.go: Header.MarshalTo", "messages/params/protocol-data.go: MarshalTo"]}
{"id": "C76", "title": "An idle connection notices nothing", "statement": "While the connection waits for the next datagram, a cancelled context, an expired heartbeat or any other error is not acted upon: the state does not change, State() keeps reporting it, and only Close, or Dial/Accept giving up, closes the association. Both situations can arise on every active connection.", "quantifier": "every execution, any number of steps during which the read does not return", "why_tests_cant": "what does not happen, however long one waits", "anchors": ["fsm.go: monitor", "asptm.go: heartbeat"]}
{"id": "C77", "title": "What a Heartbeat Ack is compared with", "statement": "If the configuration is not shared, the data of a Heartbeat Ack are compared with the user's HeartbeatInfo.Data until the first heartbeat has been stored, and from then on with the random data drawn last. Storing happens after sending, so a prompt and correct answer to the first heartbeat can be refused; and if connections share the configuration (as those of one Listener do), a correct answer can be refused because of another connection's heartbeat.", "quantifier": "every execution; for the negative part every configuration with heartbeats enabled (with empty data for the first heartbeat)", "why_tests_cant": "a race between the goroutine that sends heartbeats and the handler of the answer", "anchors": ["asptm.go: heartbeat, handleHeartbeatAck", "server.go: Accept"]}
{"id": "C78", "title": "A missed start signal disables heartbeats", "statement": "The signal that starts heartbeats is not remembered: if the goroutine that sends them is not waiting yet when the connection becomes active, it does not leave its wait and no heartbeat is sent until the association is closed. This can happen with every configuration.", "quantifier": "every execution", "why_tests_cant": "depends on which of two goroutines is scheduled first, and on what never happens afterwards", "anchors": ["asptm.go: heartbeat", "fsm.go: monitor, handleStateUpdateAsClient, handleStateUpdateAsServer"]}
{"id": "C79", "title": "Goroutines left behind", "statement": "Once the connection's monitor has returned, every goroutine that still has an error or a state to report to it stays blocked for ever. This can happen with every configuration.", "quantifier": "every execution, any number of steps", "why_tests_cant": "for ever is not observable by a test", "anchors": ["fsm.go: monitor", "fsm.go: handleSignals", "asptm.go: heartbeat"]}
{"id": "C80", "title": "Names of messages and states", "statement": "MessageClassName and MessageTypeName of a message of a known type are the names of RFC 4666 for its class and type, those of any other message are Unknown; for a decoded datagram the names are those of its class and type octets (octets below 16); different types have different names. State.String gives different states different names and Unknown to every number that is not a state.", "quantifier": "all messages, all datagrams, all state values", "why_tests_cant": "tests compare a few names; a name repeated from a neighbouring file goes unnoticed", "anchors": ["messages/*.go: MessageClassName", "messages/*.go: MessageTypeName", "fsm.go: State.String"]}
{"id": "C81", "title": "Exported constants have the numbers of RFC 4666, except users and service indicators", "statement": "The exported constants for traffic modes, error codes, status types and information, unavailability causes, registration and deregistration status have the values of RFC 4666, so a Status built from them reads back with the right type and information. Every constant for an MTP3 user has a wrong value, which goes out in the User/Cause parameter for every cause. Of the service indicators only SCCP, TUP and ISUP are right.", "quantifier": "all constants, all causes", "why_tests_cant": "tests use the constants on both sides, so a wrong number cancels out", "anchors": ["messages/params/user-cause.go", "messages/params/protocol-data.go", "messages/params/status.go", "messages/params/error-code.go", "messages/params/traffic-mode-type.go", "messages/params/registration-status.go", "messages/params/deregistration-status.go"]}
{"id": "C82", "title": "What is read at one end was written at the other", "statement": "Two connections of this library talk over a network that may lose and reorder datagrams but neither changes nor duplicates them. For every set of payloads, Read and ReadPD at one end return such payloads at most as often as calls at the other end were made to send one. If the other end's user only uses Write and WriteToStream, Read returns each byte string at most as often as it was written, and ReadPD returns exactly the payload the configuration of the sender gives those bytes.", "quantifier": "every execution of the two connections in which no datagram exceeds 1500 bytes, every set of payloads, every pair of configurations", "why_tests_cant": "needs every interleaving of two endpoints and a network", "anchors": ["conn.go: Read, ReadPD, Write, WriteToStream, WritePD, WriteSignal", "transfer.go: handleData", "fsm.go: monitor"]}
{"id": "C83", "title": "Nothing is lost between Write and Read", "statement": "When every handler has ended, the context is not done and no DATA was refused, every received payload has been taken by a reader or is in the queue, exactly as often as it was received. If furthermore the peer is another connection of this library and nothing is under way, every payload of a call that succeeded at the one end has been taken at the other end or is in the queue there. The condition about refused DATA is needed: DATA and ASP Active Ack use different streams; if DATA overtakes ASP Active Ack, a payload whose Write succeeded is lost.", "quantifier": "every execution of one connection, or of two connections in which no datagram exceeds 1500 bytes; every set of payloads", "why_tests_cant": "a test cannot show that no interleaving loses a payload", "anchors": ["conn.go: Read, ReadPD, Write, WriteToStream, WritePD, WriteSignal", "transfer.go: handleData", "fsm.go: monitor, handleSignals"]}
{"id": "C84", "title": "A session without disturbances", "statement": "If the peer opens the session as RFC 4666 prescribes and then sends DATA, Heartbeat, Error and Notify messages, nobody calls Close, the context is not done, SCTP and the random numbers work and no timer expires, then the library does not panic and reports no error (so it refuses no DATA), and its state is the one that follows from the number of datagrams received. It does not get stuck: when its goroutines have nothing left to do, every datagram that arrived has been read, the lock is free, and after the second datagram Dial or Accept has returned the connection. All payloads received have then been taken by readers or are in the queue, exactly as often as they were received, unless the queue of 65535 is full.", "quantifier": "every execution of one connection with every schedule, every configuration with at least two streams, any user calls except Close", "why_tests_cant": "a deadlock or a refused message may need one interleaving out of very many", "anchors": ["fsm.go: monitor, handleStateUpdate, handleSignals", "conn.go: Read, ReadPD, Write", "transfer.go: handleData", "client.go: Dial", "server.go: Accept"]}
{"id": "C85", "title": "Client and server talking to each other", "statement": "A client and a server of this library are connected by an association that neither changes nor duplicates datagrams and lets nothing overtake the two handshake messages. While the contexts are not done, nobody calls Close, the users only send payloads in datagrams of at most 1500 bytes and SCTP works for the library's own goroutines, neither end panics or reports an error. When nothing is under way and neither library has anything left to do, Dial and Accept have returned, both ends are active, and every payload sent in either direction has been taken by a reader at the other end or is in the queue there, exactly as often as it was sent; so everything that was written with success has arrived.", "quantifier": "every execution of the two connections with every schedule, every pair of configurations with heartbeats disabled and at least two streams, any number of calls", "why_tests_cant": "needs every interleaving of two endpoints, their users and a network", "anchors": ["client.go: Dial", "server.go: Accept", "fsm.go: monitor, handleStateUpdate, handleSignals", "conn.go: Read, ReadPD, Write, WriteToStream, WritePD", "transfer.go: handleData"]}
{"id": "C86", "title": "What String shows", "statement": "String() of a header, a parameter, a payload (as returned by ReadPD) or a message writes all fields, labelled, numbers in decimal, bytes in hexadecimal, parameters in the order of RFC 4666; a nil parameter is shown as nothing. Two headers, parameters, payloads, or messages of the same type that are shown the same are the same in every field. Exception: DUNA, DAVA, DAUD, DUPU and DRST are shown as their header only, so messages for different destinations can look the same.", "quantifier": "all headers, parameters, payloads and messages, whatever their bytes", "why_tests_cant": "that no two values look the same is a statement about all pairs of values", "anchors": ["messages/header.go: String", "messages/params/params.go: String", "messages/params/protocol-data.go: String", "messages/*.go: String"]}
{"id": "C87", "title": "How much a connection does", "statement": "Whatever the peer sends and the user calls, the goroutines of a connection perform at most 39 operations plus 9 for each call of the user, 24 for each datagram received and 6 for each heartbeat interval that has elapsed; so a connection that is left alone comes to rest. A server hands to SCTP at most one datagram for each datagram received, each call of Write, WriteToStream, WritePD, WritePDToStream or WriteSignal and each heartbeat interval, and one if heartbeats are enabled; a client at most one more for itself and one more for each datagram received, and this bound is reached. At most four goroutines are started by the connection itself, two for each datagram received.", "quantifier": "every execution with every schedule, peer, user and configuration", "why_tests_cant": "a bound on all executions; tests see single ones", "anchors": ["fsm.go: monitor, handleSignals, handleStateUpdate", "asptm.go: heartbeat", "conn.go", "errors.go: handleErrors"]}
{"id": "C88", "title": "Two undisturbed endpoints come to rest with everything delivered", "statement": "A client and a server of this library are connected as in C85. From any point of such an execution on, if nothing disturbs them and the users make no new calls, at most 352 more steps are possible, plus 67 for each call made before; and as long as something is under way or the library has something left to do, a further step is possible. When they stop, nothing is under way, Dial and Accept have returned the connection, both ends are active, and every call of a user has returned, except calls of Read and ReadPD that wait while there are no data, and calls that have not begun and would themselves disturb (Close, or sending something the peer does not accept). If the users write no more at once than fits into 1500 bytes, have made fewer than 65535 calls each, and SCTP has refused nothing, then each payload is at the other end, read or ready to be read, exactly as often as Write or WriteToStream was called with it.", "quantifier": "every execution of the two connections with every schedule, every pair of configurations with heartbeats disabled and at least two streams, every set of calls and payloads", "why_tests_cant": "a test sees single runs and can only wait for a time limit; here every way of going on ends, and every end has the same result", "anchors": ["client.go: Dial", "server.go: Accept", "fsm.go: monitor, handleStateUpdate, handleSignals", "conn.go: Read, ReadPD, Write, WriteToStream", "transfer.go: handleData"]}
{"id": "C89", "title": "Every way in which a connection comes to rest", "statement": "Left alone, i.e. without new datagrams, calls, timers, cancellation or failures of an open association, a connection makes a bounded number of steps, whatever the order, and then is in one of four situations, unless it panicked: it waits for a datagram and none is there, and every message received before has been dealt with; or the monitor has returned and the association is closed; or it is deaf, and then the last datagram it received is malformed or not of version 1, or is a Heartbeat Ack while no heartbeat waits for it; or it is locked up, because it became active after Dial or Accept had returned a connection or timed out. No other hang exists. Every call of the user has then returned, except Read and ReadPD on an empty, open queue, and calls that need the state of a connection that is locked up. Each of the four situations occurs with every configuration.", "quantifier": "every execution with every schedule, peer, user and configuration", "why_tests_cant": "absence of any other deadlock is a statement about all interleavings and all histories; a test that hangs shows one, a test that passes shows nothing", "anchors": ["fsm.go: monitor, handleStateUpdate, handleSignals", "asptm.go: heartbeat, handleHeartbeatAck", "conn.go", "client.go: Dial", "server.go: Accept", "transfer.go: handleData"]}
{"id": "C90", "title": "What remains of a closed connection", "statement": "Once the monitor has returned, the state is AspDown and the association is closed. When nothing happens by itself any more, every goroutine has ended or waits in one of a complete list of places: Dial or Accept until its time is over; the heartbeats, for the connection to become active, for an acknowledgement or the next interval while the context is not done; anyone for the monitor, to report a state or an error; DATA for room in a full queue; Read and ReadPD for data. If the channels were closed, which Close does unless the state is AspDown, every call has returned. Otherwise a Read that waits then waits for ever, whatever is called or happens afterwards; this occurs with every configuration, when the peer sends ASP Down Ack while Read waits and the user then calls Close, which reports success. With heartbeats enabled, Close can leave the goroutine that sends them behind for ever.", "quantifier": "every execution with every schedule, peer, user and configuration; every continuation of it", "why_tests_cant": "a goroutine that never ends and a call that never returns cannot be observed in finite time; which ones can remain depends on all interleavings", "anchors": ["conn.go: Close, Read, ReadPD", "fsm.go: monitor, handleSignals", "asptm.go: heartbeat", "transfer.go: handleData"]}
{"id": "C91", "title": "A parsed message is a window on the buffer it was parsed from", "statement": "messages.Parse does not copy. When the buffer given to it is overwritten afterwards, the message keeps its kind, version, class, type and length, and each parameter keeps its tag and length; the payload of the header becomes the new content of the buffer after the first eight bytes, and the value of each parameter becomes what now lies where the last parameter with its tag was found. The message is unchanged exactly if the buffer after its first eight bytes is. The payload of DATA keeps its point codes and other numbers, its user data follow the buffer. Parameters inside a parameter (Routing Key, Registration Result, Deregistration Result) keep tag and length, and their values follow the buffer in the same way. As long as the buffer is not changed, all this is indistinguishable from parsing by value. The connection itself parses copies: after any number of datagrams the copy of each still is that datagram, cut to 1500 bytes, so what Read and ReadPD deliver is not changed by later datagrams.", "quantifier": "every buffer, every later content of it, every sequence of datagrams", "why_tests_cant": "tests compare a message with the expected one at once, before the buffer is used again", "anchors": ["messages/message.go: Parse", "messages/header.go: UnmarshalBinary", "messages/params/params.go: UnmarshalBinary, ParseMultiParams", "messages/params/protocol-data.go: UnmarshalBinary", "fsm.go: monitor"]}
{"id": "C92", "title": "Where a connection has data races and where not", "statement": "Call a data race a reachable situation in which two goroutines can both access the same variable next and one of them writes. There is none about the state of the connection, whatever users, peer and scheduler do. There is none at all if heartbeats are disabled. If they are enabled, every race is between the goroutine that sends heartbeats and writes their data (filling its buffer, or storing the slice in the configuration) and a goroutine that compares these data with those of a Heartbeat Ack; both these races do occur, in both modes and with every configuration: when the peer answers before the data are stored, and when it answers twice. Two concurrent calls of WriteToStream in addition both write to the parameters of the configuration (SetLength) with nothing synchronised between.", "quantifier": "every configuration, execution, pair of goroutines; the variables are the state, the heartbeat data in the configuration and the buffer they point to", "why_tests_cant": "the race detector sees only the races of the schedule it observes; the absence of races needs all schedules", "anchors": ["asptm.go: heartbeat, handleHeartbeatAck", "fsm.go: handleStateUpdate", "conn.go: State, Close, WriteToStream", "messages/data.go: SetLength"]}
{"id": "C93", "title": "Connections that share a configuration, as those of one Listener", "statement": "Any number of connections opened with the same Config behave each like a single connection whose heartbeat data somebody else replaces now and then; this is the only influence besides panics. As long as none has stored heartbeat data, in particular if heartbeats are disabled, they are independent: their joint states are exactly the combinations of the states each can reach by itself, at most one having panicked. With heartbeats, a Heartbeat Ack is compared with the data that some connection, not necessarily this one, has drawn last; whatever the configuration, a correct answer on one connection can be refused because another one has sent its heartbeat. Whatever the other connections are doing, the peer of one more can stop all of them by sending eight bytes (DATA without Protocol Data).", "quantifier": "every configuration, every number of connections, every interleaving of their steps", "why_tests_cant": "tests use one connection per process", "anchors": ["server.go: Listen, Accept", "client.go: Dial", "asptm.go: heartbeat, handleHeartbeatAck", "transfer.go: handleData"]}
{"id": "C94", "title": "What the timers guarantee", "statement": "With a clock added to the executions, where a timer does not fire before its duration has passed and nothing is assumed about how late it fires: every execution without clock is possible with one. Heartbeats are sent at least Interval apart, the k-th after another at least k intervals later, and this bound is reached; so the number of operations a connection performs is bounded by the calls of the user, the datagrams received and the number of intervals that fit into the time passed. ErrHeartbeatExpired is reported only if at least Timer has passed since a heartbeat was sent for which no acknowledgement has been accepted since, and can be reported then. Dial and Accept do not return ErrTimeout earlier than ten seconds after the association is up, and can then. And in executions in which one goroutine is never kept waiting once it can go on (nothing being assumed about the others): if it is the goroutine that called Dial or Accept, they have returned, with whatever result, after ten seconds at the latest; if it is the one that sends heartbeats, it waits at most Timer for an acknowledgement and at most Interval before the next heartbeat, and not more than Timer and Interval together pass between one heartbeat and the next; both bounds are reached.", "quantifier": "every configuration (all durations, also zero and negative ones for the lower bounds), every execution, every assignment of times", "why_tests_cant": "a test of lower bounds on time has to wait, and sees one schedule", "anchors": ["asptm.go: heartbeat", "client.go: Dial", "server.go: Accept", "config.go: HeartbeatInfo"]}
{"id": "C95", "title": "A session with heartbeats that are answered", "statement": "With heartbeats enabled, as long as the peer sends what is expected of it (handshake, then DATA, Heartbeat, Error, Notify) and answers each Heartbeat of the library once, with its data and not before the library has stored them, the context stays open, the user does not call Close, and SCTP, random numbers and timers do not fail: the library does not panic, reports no error, refuses no message and expires no heartbeat; the state follows from the number of datagrams received; the number of its heartbeats equals the number of answers received, or is one more while it waits for an answer; it gets stuck nowhere: at rest all datagrams are read, the connection is returned by Dial or Accept after the handshake, every payload received was taken by a reader or is queued; and once the heartbeat goroutine has been woken, the library rests only to wait for the answer to a heartbeat.", "quantifier": "every configuration, client and server, every schedule, every peer and user as described, any number of messages", "why_tests_cant": "a test sees one interleaving of the acknowledgement with the heartbeat goroutine, the monitor and the handlers", "anchors": ["asptm.go: heartbeat, handleHeartbeatAck", "fsm.go: monitor, handleStateUpdate, handleSignals", "conn.go: Write, Read"]}
{"id": "C96", "title": "Two endpoints of this library with heartbeats", "statement": "Take a client made by Dial and a server made by Accept, connected to each other, each with a configuration of its own, with or without heartbeats. As long as the association neither changes nor duplicates datagrams and lets nothing overtake the handshake, contexts stay open, the users do not call Close and send only DATA of at most 1500 bytes, SCTP, random numbers and timers do not fail, and no answer to a heartbeat is read before the sender has stored the heartbeat's data: neither end panics or reports an error; each end has received one answer for each of its heartbeats, except possibly the last; when nothing is under way and neither library has work, Dial and Accept have returned their connections, both ends are active and everything is read; once the heartbeat goroutine of an end has been woken, such rest never occurs, so heartbeats go on; no payload is lost. Without the last condition the property fails: a correct answer that comes before the data are stored is refused as an unexpected message.", "quantifier": "every pair of configurations (with or without heartbeats), every schedule of both ends and the network, any number of payloads and heartbeats", "why_tests_cant": "needs two endpoints and all interleavings of two heartbeat goroutines, two monitors, their handlers and the network", "anchors": ["asptm.go: heartbeat, handleHeartbeat, handleHeartbeatAck", "client.go: Dial", "server.go: Accept", "fsm.go: monitor, handleStateUpdate"]}
{"id": "C97", "title": "Every request is answered or refused", "statement": "When the handlers of all messages received so far have ended and the context is not done, each ASP Up, ASP Down, ASP Active, ASP Inactive and Heartbeat received has been answered with the corresponding acknowledgement, or an error was reported for it: there are at most as many requests as answers of that kind and errors reported by handlers of that kind. If no error was reported for that kind of request, there are exactly as many answers as requests. In particular, with an attentive peer (C95) every heartbeat of the peer has been answered whenever the library rests.", "quantifier": "every configuration, client and server, every schedule, every sequence of datagrams", "why_tests_cant": "a test cannot exclude that some interleaving drops a request silently", "anchors": ["aspsm.go: handleAspUp, handleAspDown", "asptm.go: handleAspActive, handleAspInactive, handleHeartbeat", "fsm.go: handleSignals"]}
{"id": "C98", "title": "Which error messages.Parse returns", "statement": "messages.Parse and params.ParseMultiParams fail for one of a complete list of reasons: the datagram is shorter than the common header (messages.ErrTooShortToParse); its body is a sequence of complete parameters followed by one to three bytes (params.ErrTooShortToParse) or by a parameter whose length is below four or exceeds what is left (params.ErrInvalidLength); or a message of a known kind has a parameter that this kind does not define (messages.ErrInvalidParameter). The reason is determined by the datagram; errors.Is with the variable named and the text of the error identify it. For DUNA, DAVA, DAUD, DUPU and DRST the text of the last one also says which message failed. No other error is returned.", "quantifier": "every byte string", "why_tests_cant": "tests try a few malformed datagrams; that there are no other errors, and that each error occurs exactly for its reason, is a statement about all byte strings", "anchors": ["messages/message.go: Parse", "messages/header.go: UnmarshalBinary", "messages/params/params.go: Parse, ParseMultiParams", "messages/duna.go: UnmarshalBinary"]}
{"id": "C99", "title": "How the errors of package m3ua can be told apart", "statement": "errors.Is with an error variable of package m3ua is true exactly for the errors that stand for what the variable names. handleErrors answers an error by its kind also if it is wrapped, except UnsupportedClassError and UnsupportedMessageError, which it recognises only if they are not (the library never wraps them). The texts of two errors of this module that wrap nothing are equal exactly if the errors say the same: the same variable, or the same kind of error about the same version, stream, class, or kind of message.", "quantifier": "every error value of the module, with any number of wrappings", "why_tests_cant": "a test compares a few errors; distinctness concerns all pairs", "anchors": ["errors.go", "messages/message.go", "messages/params/params.go"]}
{"id": "C100", "title": "Dial, Listen and Accept from their beginning", "statement": "Dial returns exactly these errors: invalid network, the error of sctp.DialSCTP, the wrapped error of GetStatus, and, once a connection is started, ErrFailedToEstablish and ErrTimeout; each can occur with every configuration. Accept and Listen have a corresponding list. Dial and Accept panic before that exactly if the configuration or its HeartbeatInfo is nil. If Dial or Accept fails after SCTP has opened an association, the association has been closed, except if SCTP could not tell its status: then it is left open. A connection is started exactly if SCTP opened an association and told its status, with a maximum message stream one less than the number of outbound streams; Write and WritePD therefore use negotiated streams other than 0.", "quantifier": "every network name, configuration, behaviour of SCTP and execution of the connection", "why_tests_cant": "errors of the operating system are not provoked in tests; a leaked association is not noticed by a test that ends the process", "anchors": ["client.go: Dial", "server.go: Listen, Accept", "conn.go: netMap, chooseStreamID"]}
{"id": "C101", "title": "What a failed UnmarshalBinary leaves behind", "statement": "Calling UnmarshalBinary on a message variable that already holds a message: whether it fails, with which error, and the message if it succeeds, are as described in C18, C20, C23, C27 and C98. If it fails, the variable is changed nevertheless. With fewer than eight bytes it loses its Header (nil), and nothing else changes. If the body is not a sequence of parameters, the header is the new one and the parameters are the old ones. If a parameter does not belong to the message, the parameters before it have been stored, those behind it have not, and the header is the new one. Without a header, Version and marshalling panic (MarshalTo still reports a buffer that is too short); MarshalLen, and for all but Generic the class and the type, can still be asked for. A parameter whose UnmarshalBinary fails has got the new tag and the wrong length, with the old value, unless there were fewer than four bytes.", "quantifier": "every message variable of any kind, with or without a header, with any parameters, and every byte string", "why_tests_cant": "tests unmarshal into fresh variables and stop looking at them after an error", "anchors": ["messages/header.go: ParseHeader", "messages/asp-up.go: UnmarshalBinary, MarshalTo and the same in the other message files", "messages/generic.go: UnmarshalBinary", "messages/params/params.go: UnmarshalBinary"]}
{"id": "C102", "title": "A connection that leaves AspActive is lost, and a client insists", "statement": "Once Dial or Accept has stopped waiting and the state is not AspActive, nobody ever observes AspActive again: no Read, ReadPD, Write, WriteToStream, WritePD or WritePDToStream call made from then on sends, takes or returns a payload; if it returns at all, it returns ErrNotEstablished. A client nevertheless asks again: before the first datagram and after each datagram received, whatever it is, it sends ASP Up if it is AspDown and ASP Active if it is AspInactive, once, and these are all the requests it sends; a server sends none. So a client's user who sends ASP Inactive with WriteSignal, to suspend traffic, hangs both ends of the connection if the peer is this library too.", "quantifier": "every execution; every number and kind of received messages; the last sentence: a schedule of two endpoints, and every continuation of it", "why_tests_cant": "that something never happens again, and the requests after arbitrary message sequences, are not visible in finitely many runs", "anchors": ["fsm.go: handleStateUpdate, handleStateUpdateAsClient, monitor", "conn.go: Read, ReadPD, Write, WritePD", "asptm.go: handleAspInactiveAck", "aspsm.go: handleAspDownAck"]}
{"id": "C103", "title": "What a connection sends is determined by what it has received", "statement": "Whenever a connection waits for a datagram and has not been closed, what it has handed to SCTP by itself, heartbeats aside, is exactly this, in this order, with one Error message somewhere in between for each error reported about a DATA message or a Heartbeat Ack: a client's first ASP Up; then for each datagram received the answer to it, in the state that it found - the acknowledgement of an expected ASP Up, ASP Down, ASP Active, ASP Inactive or Heartbeat, an Error message with code 1 for another version, code 4 for a message that is not supported, code 6 for one that is unexpected, nothing otherwise -, followed by a client's request in the state that the datagram led to. At any other moment, also if the connection hangs, it has sent a beginning of this. Conversely, for every sequence of datagrams of at most 1500 bytes that can be parsed, have version 1, are neither DATA nor Heartbeat Ack and do not make the connection AspActive a second time, there is an execution in which all of them are received and answered like this and the connection waits for more; if they do make it AspActive a second time, there is none; so for every n a client can get n Error messages and have sent n+1 ASP Ups. So no two datagrams are answered in another order than received, nothing is sent twice or left out, and two connections with the same mode and configuration that have received the same and reported no such errors have sent the same, however the goroutines were scheduled and whatever their users did meanwhile.", "quantifier": "every execution; every number, order and content of received datagrams; every configuration; both modes", "why_tests_cant": "goroutines are started per datagram, the answers are sent by two different goroutines, and a test sees only some interleavings and some sequences", "anchors": ["fsm.go: monitor, handleStateUpdate, handleSignals", "errors.go: handleErrors", "aspsm.go: handleAspUp, handleAspDown", "asptm.go: handleAspActive, handleAspInactive, handleHeartbeat"]}
{"id": "C104", "title": "What becomes of a datagram that is parsed and marshalled again", "statement": "If messages.Parse(b) returns m, MarshalBinary of m returns the first eight bytes of b as they were, the length field included, followed by the parameters with complete zero padding: of a known kind of message, for each parameter the kind defines the last one with its tag, in the order of the constructor; of an unknown kind all of them, in the order received. This is b itself exactly if the padding of b is complete and zero and, for a known kind, its parameters come in that order, none twice. The length field is not adapted: a datagram with a right length and a parameter twice is sent on with a length that is too large; SetLength, called on any message before, makes it right. What has been marshalled once is not changed by parsing and marshalling it again.", "quantifier": "every byte string that is accepted", "why_tests_cant": "characterises the fixed points of re-encoding among all byte strings", "anchors": ["messages/message.go: Parse", "messages/*.go: MarshalBinary, MarshalTo, UnmarshalBinary", "messages/header.go: MarshalTo, UnmarshalBinary", "messages/params/params.go: MarshalTo, ParseMultiParams"]}
{"id": "C105", "title": "Why a connection is closed", "statement": "Whenever the library closes the association or the channels of a connection, one of the following has happened before: the user called Close; the monitor found the context cancelled; Dial or Accept found its ten seconds over; the acknowledgement of a heartbeat was late; there were no random numbers for a heartbeat; reading from the association failed; writing to it failed; a DATA message was received whose Protocol Data is shorter than twelve bytes. As long as none of these has happened, the association is open and the monitor runs. Failures after the library has closed the association do not count, nor do failures to write what the user wants to write, or ASP Up or ASP Active: a client whose request cannot be sent does not close the connection and does not ask again until something arrives. The list cannot be shortened: each reason can be the only one.", "quantifier": "every execution; for the last sentence every configuration with heartbeats and every reason", "why_tests_cant": "says that nothing else, in any interleaving, ends a connection", "anchors": ["fsm.go: monitor, handleStateUpdate, handleSignals", "errors.go: handleErrors", "conn.go: Close", "client.go: Dial", "server.go: Accept", "asptm.go: heartbeat", "transfer.go: handleData"]}
{"id": "C106", "title": "What appending to the value of a parsed parameter does to the others", "statement": "Let m be parsed from a buffer, and let a user append bytes to the value of one of its parameters, m.X.Data = append(m.X.Data, ...). The result is the old value followed by the new bytes. If the array behind the buffer is too small for that, nothing else changes. Otherwise the bytes are written into the buffer: m keeps its kind, version, class, type and length; the parameters that came before X in the buffer are as they were; those that came behind it keep tag and length, but their values are overwritten as far as the new bytes reach. As a tag, a length and the padding lie between two values, up to four bytes and the padding can be appended without changing any other parameter; a second Routing Context can be appended, a third one changes the OPC of the Protocol Data behind it.", "quantifier": "every accepted buffer, every array it is the beginning of, every parameter, every bytes appended", "why_tests_cant": "depends on the capacity of slices, which a test sees only for the buffer it happens to use", "anchors": ["messages/message.go: Parse", "messages/header.go: UnmarshalBinary", "messages/params/params.go: UnmarshalBinary, ParseMultiParams"]}
{"id": "C107", "title": "One parameter in several messages", "statement": "Messages hold pointers to parameters, and every constructor, and SetLength, writes to the parameters it finds. Take any program that makes parameters and messages of any kind (one parameter in any number of messages, or several times in a Generic one), calls SetLength on parameters and messages and marshals messages, in any order. If it does not assign to the data of a parameter or to a field of a message, then every MarshalBinary returns the octets that the message had, by RFC 4666, when it was made, so sharing cannot be noticed. With assignments: after SetLength of a message, and until a field of it or the data of one of its parameters is assigned to, MarshalBinary returns the message with right lengths, whatever is done to others. Messages never change tag or data of a parameter. But if the data of a shared parameter is changed and SetLength is called for one message only, the other ones go out with the new value and a wrong message length; without SetLength the peer cannot parse them.", "quantifier": "all programs of such statements, of any length; all kinds of messages; all parameters", "why_tests_cant": "depends on the order of arbitrarily many statements and on which pointers are equal", "anchors": ["messages/params/params.go: SetLength", "messages/*.go: NewXxx, SetLength, MarshalBinary", "messages/generic.go: New, SetLength"]}
{"id": "C108", "title": "Nil parameters", "statement": "messages.New panics exactly if one of its parameters is nil, although the constructors of the typed messages and of the nested parameters accept nil; the parameters before the nil have then got their lengths. On a Generic with a nil member MarshalLen, SetLength, MarshalBinary and MarshalTo panic (also with a short buffer), String does not; MarshalMultiParams panics exactly if a member is nil. Reading a parameter of a parsed message with its accessor panics exactly if the message does not have it, so that the peer decides; RoutingContext() and AffectedPointCode() panic also if the last occurrence has no first value.", "quantifier": "every list of parameters, every parsed message of a known type, every parameter of its type", "why_tests_cant": "tests construct messages with all parameters and read those they have put in", "anchors": ["messages/generic.go: New", "messages/generic.go: (*Generic).SetLength", "messages/generic.go: (*Generic).MarshalTo", "messages/params/params.go: MarshalMultiParams", "messages/params/routing-context.go: RoutingContexts"]}
{"id": "C109", "title": "Decoding into a payload variable that already holds something", "statement": "ProtocolDataPayload and RegistrationResultPayload: UnmarshalBinary replaces the variable as a whole, or fails and leaves it as it is. DeregResultPayload: if it succeeds, a field whose parameter is not among the two received keeps its old content; if it fails, nothing changes. RoutingKeyPayload: with fewer than three parameters, or if the bytes are no parameters, nothing changes; otherwise each field whose parameter occurs before the first parameter that does not belong there gets the last such parameter, every other field keeps its old content, and the call fails with ErrInvalidType exactly if there is a parameter that does not belong there. So a variable that is used again mixes two routing keys without an error; an empty one gets what the function ParseXxx returns.", "quantifier": "every content of the variable, every byte string", "why_tests_cant": "tests decode into fresh variables", "anchors": ["messages/params/routing-key.go: (*RoutingKeyPayload).UnmarshalBinary", "messages/params/registration-result.go: (*RegistrationResultPayload).UnmarshalBinary", "messages/params/deregistration-result.go: (*DeregResultPayload).UnmarshalBinary", "messages/params/protocol-data.go: (*ProtocolDataPayload).UnmarshalBinary"]}
{"id": "C110", "title": "A client and a gateway that sends notifications", "statement": "Let the peer be a gateway as RFC 4666 describes it: it answers every ASP Up with ASP Up Ack followed by n Notify messages, and every ASP Active with ASP Active Ack followed by any fixed number of Notify messages, and sends nothing else. Let the user of the client send neither ASP Up nor ASP Active. Then, as long as the connection is not closed, the client, whatever the schedule, sends by itself (heartbeats aside) only a beginning of: ASP Up, n + 1 times ASP Active, n times the Error message \"unexpected message\"; the bytes of each are those of the configuration. When it has received all the gateway has sent and waits for more it has sent exactly that and is AspActive. For every such gateway and every configuration there is an execution that comes to this point, and nothing has gone wrong in it. So the exchange ends, ASP Active is sent once more for every notification after ASP Up Ack, and all but the first of the acknowledgements are answered with an Error message.", "quantifier": "every gateway of this kind, every n, every configuration, every schedule of the goroutines and every delay of the messages", "why_tests_cant": "needs a real peer that sends notifications, and depends on the order of the messages; a test has one peer and one schedule", "anchors": ["fsm.go: handleSignals", "fsm.go: handleStateUpdateAsClient", "fsm.go: monitor", "management.go: handleNotify", "aspsm.go: handleAspUpAck", "asptm.go: handleAspActiveAck", "errors.go: handleErrors"]}
{"id": "C111", "title": "How much room Read needs", "statement": "No payload that is queued or was taken from the queue has more than 1476 bytes of data, whatever the peer sends. So Read with a buffer of at least 1476 bytes either fails with ErrNotEstablished or copies all of the payload and returns its length, which is at most the size of the buffer. No smaller buffer is enough for everything: every connection can get a payload of exactly 1476 bytes.", "quantifier": "every peer, every schedule, every sequence of calls, every size of at least 1476", "why_tests_cant": "the bound follows from the monitor's buffer of 1500 bytes and the least size of a DATA message; a test would have to guess the largest payload", "anchors": ["conn.go: Read", "conn.go: ReadPD", "fsm.go: monitor", "transfer.go: handleData", "messages/data.go: UnmarshalBinary"]}
{"id": "C112", "title": "The program pc-conv and the entry points for fuzzing", "statement": "pc-conv ends with the message that a flag is required exactly if the number is negative and there is no point code; with the message about the separator exactly if there is a point code without a dash (and the number was not already a reason to panic); and it panics exactly if there is a positive number and the variant is empty, or a point code with a dash that NewPointCodeFrom refuses. For a variant of the library other than 4-4-6 it panics exactly if the point code has a dash and is not made of as many decimal numbers as the variant has groups. A positive number is printed modulo 2 to the number of bits of the variant, with its positional representation; what is printed for a number, given back as a point code, is printed the same. A point code with all groups in range is printed with its positional value. Given both, both are printed, the number first. The number 0 is not printed. Both Fuzz functions return for every input: 1 exactly for a non-empty sequence of parameters, and for a message, and 0 otherwise.", "quantifier": "every number, every string as point code and as variant, every input to Fuzz", "why_tests_cant": "unbounded inputs; the cases in which the program panics or prints nothing are not those one tries", "anchors": ["examples/pc-conv/main.go: main", "pc/pc.go: NewPointCode", "pc/pc.go: NewPointCodeFrom", "messages/params/fuzz.go: Fuzz", "messages/fuzz.go: Fuzz"]}
{"id": "C113", "title": "The example client and the example server", "statement": "Let Dial with the configuration of the example client and Accept with that of the example server, both without -hb-interval, have started connections over the same association. Then heartbeats are disabled and the two are a client and a server to which the theorems on two endpoints apply. The bytes of the client's ASP Up and ASP Active are fixed; the bytes of its DATA for a payload d are given, and have at most 1500 bytes exactly if d has at most 1456. If the client's user only calls Write(d), the server's only Read with a buffer of 1500 bytes, and no datagram of the client is longer than 1500 bytes, then every Read of the server returns d, whole, or ErrNotEstablished, and nothing else (in particular not io.EOF, for which the example server looks). If d has at most 1456 bytes, there is more than one stream, and nothing disturbs them, they come to rest, and then the server's user has got, or the queue holds, the payload with the client's point codes exactly as often as Write was called. With -hb-interval, whatever the intervals and the server's timer, the two are still partners to whom the theorems on two endpoints with heartbeats apply (C96), and a side sends heartbeats exactly if its interval is not zero. The two ways in which the example and README.md make the client's configuration start the same connection, up to the data in HeartbeatInfo.", "quantifier": "every payload, every interval and timer, every number of calls (fewer than 65535), every schedule and every delay of the datagrams; any order after the handshake", "why_tests_cant": "the examples run over real SCTP on two hosts and for ever; a run shows one schedule and one payload", "anchors": ["examples/client/m3ua-client.go: main", "examples/server/m3ua-server.go: main", "examples/server/m3ua-server.go: serve", "client.go: Dial", "server.go: Accept", "conn.go: Read", "conn.go: Write"]}
{"id": "C114", "title": "ErrNotEstablished is final", "statement": "Once a call of Read, ReadPD, Write, WriteToStream, WritePD or WritePDToStream has returned ErrNotEstablished, for whatever reason (the state was not AspActive, or the queue of payloads was closed while the call waited), nobody observes AspActive any more, and every call of one of these methods made from then on sends nothing, takes no payload, and returns ErrNotEstablished if it returns at all. The same holds from the moment at which Close has closed the queue of payloads. So a user who gives up on the first ErrNotEstablished loses nothing, and one who tries again on the same connection tries in vain.", "quantifier": "every execution, every peer, every number of concurrent calls, every continuation", "why_tests_cant": "a statement about all continuations; the state is changed by several goroutines, and after a Close by goroutines that are still running", "anchors": ["conn.go: Read", "conn.go: ReadPD", "conn.go: Write", "conn.go: WriteToStream", "conn.go: WritePD", "conn.go: WritePDToStream", "conn.go: Close", "fsm.go: handleStateUpdate"]}
{"id": "C115", "title": "A server that ends when Accept fails", "statement": "Let a server call Accept again and again and end as soon as Accept fails, as the example server does, with a configuration that has heartbeat parameters (which others may change meanwhile). It can end with the error e after k connections exactly if SCTP gives k associations and e is one of the errors of the next call of Accept: one that SCTP gives for accepting or for the status, the one for an association that is not of SCTP, or, whenever there is another association with a status, ErrTimeout or ErrFailedToEstablish. So one peer can end it: after any number of connections, all of them AspActive and without any reason to go down, an association on which nothing is received ends the program with ErrTimeout. Accept never panics, and each connection it gets is a server connection on which ASP Active or ASP Active Ack was received, one for each association.", "quantifier": "every number of connections, every behaviour of SCTP, every change of the configuration between calls, every execution of each connection", "why_tests_cant": "needs a peer that misbehaves after others have connected, and 10 seconds for each", "anchors": ["examples/server/m3ua-server.go: main", "server.go: Accept", "server.go: Listen"]}
{"id": "C116", "title": "The heartbeat data in the configuration are never sent", "statement": "Every Heartbeat the library sends carries the 128 random bytes drawn last, and never the data in Config.HeartbeatInfo; in particular never the text EnableHeartbeat puts there. Take any execution of a connection that does not share its configuration in which no Heartbeat Ack is looked at before the first Heartbeat was stored. Then with any other data in the configuration there is the same execution: the same goroutines do the same with the same results, and everything ends up the same. So setting HeartbeatInfo.Data, which the comment on EnableHeartbeat recommends, has no effect.", "quantifier": "every execution, every peer, every content of HeartbeatInfo.Data", "why_tests_cant": "a statement that two configurations have the same set of executions; a test compares single runs, whose heartbeats are random", "anchors": ["config.go: EnableHeartbeat", "config.go: NewHeartbeatInfo", "asptm.go: heartbeat", "asptm.go: handleHeartbeatAck"]}
{"id": "C117", "title": "Calls made one after the other", "statement": "Let the methods that write a payload (or those that read one) be called one after the other, each only after the one before has returned, as a program with one writing and one reading goroutine does; everything else may be called at any time. Then everything a call does comes before everything the next call does. Whenever no writing call is under way, there is a point up to which every call has handed exactly the datagram for its argument to SCTP, in the order of the calls, and from which on every call has sent nothing and returned ErrNotEstablished; so each result other than ErrNotEstablished stands for exactly one datagram. Whenever no reading call is under way, there is a point up to which the calls have returned, one each and in order, the payloads as they were queued, Read cut to its buffer, and from which on every call has returned ErrNotEstablished; what was queued and not returned is still in the queue.", "quantifier": "every execution, every peer, every number of calls of any of the six methods, everything else concurrent", "why_tests_cant": "a statement about all executions and the whole sequence of results; failures in the middle depend on the schedule", "anchors": ["conn.go: Write", "conn.go: WriteToStream", "conn.go: WritePD", "conn.go: WritePDToStream", "conn.go: Read", "conn.go: ReadPD", "conn.go: Close", "examples/client/m3ua-client.go: main", "examples/server/m3ua-server.go: serve"]}
{"id": "C118", "title": "What a connection sends by itself, and how long it is", "statement": "Whatever happens, also after the connection was closed, a connection sends nothing by itself but the request for the next state, the four acknowledgements and the Error messages made from its configuration, Heartbeats with 128 bytes, and the acknowledgement of a Heartbeat that it has received before. Each is at most as long as the larger of 140 bytes and the longest message made from the configuration, or as such a Heartbeat rounded up to a multiple of four. So, whatever the peer sends, what a connection sends by itself fits into the 1500 bytes with which the peer reads, if the messages made from the configuration do; and if the arguments of the user's calls do as well, everything it sends does. Then, if the user of one of two endpoints only calls Write and WriteToStream, the other user gets only data that were written, and no more often than they were written (C82), without any assumption on what was sent. The condition is needed: a client with 373 routing contexts or more sends an ASP Active of which the first 1500 bytes cannot be decoded.", "quantifier": "every configuration, client and server, every execution, every peer", "why_tests_cant": "a statement about all datagrams ever sent, whatever was received; tests send a few messages", "anchors": ["errors.go: handleErrors", "errors.go: first40Octets", "asptm.go: handleHeartbeat", "asptm.go: heartbeat", "asptm.go: initiateASPTM", "aspsm.go: initiateASPSM", "fsm.go: monitor"]}
{"id": "C119", "title": "A failed read of the association is final, and Read does not report it", "statement": "Once a read of the association has failed, for whatever reason (the peer is gone, or a deadline set with SetReadDeadline or SetDeadline has passed, which go to the association and so to its only reader, the monitor), no datagram is received any more, nobody reads from the association again, and the goroutine that read does nothing but close the connection. When nothing happens by itself any more after that, the state is AspDown, the association is closed and the monitor has ended; every call of Read, ReadPD and the Write methods made from then on returns ErrNotEstablished if it returns. Read and ReadPD never report anything but a payload or ErrNotEstablished, so a timeout is not among the results; a user who waits in Read with a deadline loses the connection with every configuration, not just the call.", "quantifier": "every execution, every peer and user, every configuration; every continuation", "why_tests_cant": "that nothing is ever received again after one failed read, in every schedule, and that no call ever returns a timeout", "anchors": ["fsm.go: monitor", "conn.go: SetDeadline", "conn.go: SetReadDeadline", "conn.go: Read", "conn.go: ReadPD", "conn.go: Close"]}
{"id": "C120", "title": "A user who does not read", "statement": "At most 65535 payloads are queued. However many DATA messages arrive while nobody reads, all are received, the first 65535 payloads are queued, for each of the others a goroutine of its own waits with the payload, and the connection works and waits for more: there is no back-pressure, and the number of waiting goroutines has no bound. A goroutine that waits at a full queue stays there as long as nobody takes a payload and the context is not cancelled, whatever else happens. Once Close has closed the queue such a goroutine can only panic: the process does not come to rest without a panic unless the context is cancelled, and it does not help to read what is queued. This happens with every configuration: after 65536 unread DATA messages Close returns without an error and the process panics.", "quantifier": "every configuration, client and server; every number of DATA messages and every payload; every execution that continues from there", "why_tests_cant": "no test receives more than 65535 messages, and none can exclude that the goroutine goes on", "anchors": ["transfer.go: handleData", "fsm.go: handleSignals", "fsm.go: monitor", "conn.go: Close", "client.go: Dial", "server.go: Accept"]}
{"id": "C121", "title": "A datagram of which only the beginning has arrived", "statement": "Of a datagram that messages.Parse accepts, a beginning is accepted exactly if it ends with the eight octets of the header or at the end of a parameter, before, in or after its padding; it is then a message of the same kind with the same header, the length field of the whole included, that has exactly the parameters which arrived complete. So the first eight octets of everything that is accepted are accepted as a message without parameters. If the length field was right it is larger than what has arrived, but it is not looked at. For params.ParseMultiParams the same holds. A connection acts on such a beginning as on the whole message: a DATA message that ends after its Protocol Data is delivered, and one that ends before it, or a Heartbeat Ack that ends before its Heartbeat Data, makes the process of an active connection panic; the first eight octets of any DATA message are enough.", "quantifier": "every datagram that is accepted and every position at which it may be cut", "why_tests_cant": "one would have to cut every message at every position", "anchors": ["messages/params/params.go: ParseMultiParams", "messages/message.go: Parse", "messages/header.go: UnmarshalBinary", "fsm.go: monitor", "transfer.go: handleData"]}
{"id": "C122", "title": "A connection that fails before the first answer", "statement": "Whatever happens to a connection on which no message has been received that asks for AspInactive or AspActive, the association breaking and the context being cancelled included: the channels are not closed, Dial and Accept do not notice and wait for their timer of ten seconds, and the only thing they return is ErrTimeout. (If such a message has been received before, the same failure makes them return ErrFailedToEstablish at once.) With every configuration, client and server, it happens that the first read of the association fails, or that the context is cancelled at the beginning, the monitor closes the association and returns, nothing happens any more by itself, and Dial or Accept still waits, then returns ErrTimeout.", "quantifier": "every configuration, client and server, and every execution", "why_tests_cant": "the absence of a reaction in all executions cannot be observed", "anchors": ["client.go: Dial", "server.go: Accept", "conn.go: Close", "fsm.go: monitor"]}
{"id": "C123", "title": "A peer that refuses the client", "statement": "Let the peer answer every ASP Up with ASP Up Ack or with an Error message, and every ASP Active with an Error message (for instance because no application server is configured for the client, or because it is blocked), and send nothing else. Let the user of the client send neither ASP Up nor ASP Active. Then, as long as the connection is not closed and whatever the schedule, the client sends by itself (heartbeats aside) ASP Up and then one more request for each answer: ASP Active if ASP Up is acknowledged, ASP Up otherwise. Whenever it waits for the next datagram it has just asked again, and exactly one answer of the peer is under way; so the two never rest, and the exchange goes on as fast as the association allows. Meanwhile the state is never AspActive, nobody observes AspActive, and the only thing Dial can return is ErrTimeout, after its ten seconds: the reason the peer gives is not reported. For every such peer, every configuration and every n there is an execution with n answers in which nothing else has gone wrong.", "quantifier": "every such peer, every configuration of the client and every execution; every number of answers", "why_tests_cant": "that an exchange never comes to rest in any execution cannot be observed", "anchors": ["fsm.go: handleStateUpdateAsClient", "fsm.go: handleSignals", "management.go: handleError", "client.go: Dial"]}
{"id": "C124", "title": "A client whose peer sends everything back", "statement": "Let the peer of a client send back every datagram it gets, in that order, as when the association ends in an echo service. Let the parameters of the configuration be such that the client's own messages can be read (their parameters are of the right kind and they have at most 1500 octets), let heartbeats be disabled and let the user send nothing. Then, as long as the connection is not closed and whatever the schedule, the client sends and receives only the beginning of: ASP Up, ASP Up Ack, ASP Active, Error, ASP Active, ASP Active Ack, Error, Error. When it has got everything back and waits for more, these are all sent, it is AspActive, and Dial has been told that the connection is established, unless its ten seconds were over before. For every such configuration there is an execution where this happens in time and nothing goes wrong. So the client does not check which side it talks to: it acknowledges the requests it has made itself, and that Dial succeeds does not show that there is a gateway.", "quantifier": "every configuration of the client of that kind, and every execution", "why_tests_cant": "all interleavings of the goroutines, and all configurations", "anchors": ["fsm.go: handleSignals", "fsm.go: handleStateUpdateAsClient", "aspsm.go: handleAspUp", "asptm.go: handleAspActive", "client.go: Dial"]}
{"id": "C125", "title": "A client that is taken out of service and refused", "statement": "Let the peer acknowledge ASP Up and ASP Active, then send ASP Inactive Ack or ASP Down Ack without being asked (RFC 4666 allows it to lock an ASP out that way), answer every request from then on with an Error message, and send nothing else. Let the user of the client send neither ASP Up nor ASP Active. Then, as long as the connection is not closed and whatever the schedule: whenever the client waits for a datagram, the peer has something more to send, because the client has asked again; so the two never rest. When n refusals have been received after the lockout, the client has sent by itself (heartbeats aside) ASP Up, ASP Active, an Error message if it was ASP Down Ack, and then n + 1 times ASP Active (after ASP Inactive Ack) or ASP Up (after ASP Down Ack). Once it waits again after the lockout nobody observes AspActive any more. For every such peer, every configuration and every n there is an execution with n refusals in which nothing has gone wrong. Other than in C123 Dial has returned long before, so no timer ends the exchange.", "quantifier": "every such peer, every configuration of the client and every execution; every number of refusals", "why_tests_cant": "that an exchange never comes to rest in any execution cannot be observed", "anchors": ["fsm.go: handleStateUpdateAsClient", "fsm.go: handleSignals", "aspsm.go: handleAspDownAck", "asptm.go: handleAspInactiveAck", "management.go: handleError"]}
{"id": "C126", "title": "A client that is taken out of service and let in again", "statement": "Let the peer acknowledge ASP Up and ASP Active, then once send ASP Inactive Ack or ASP Down Ack without being asked, and acknowledge the requests by which the client asks to be let in again (ASP Active; after ASP Down Ack first ASP Up). Let the user of the client send neither ASP Up nor ASP Active, and let there be no reason to close the connection. Then the client does not survive the last acknowledgement, whatever the schedule: having received it, it never waits for a datagram again; and whenever nothing happens any more by itself and nothing the peer has sent is still under way, the connection is locked up (its monitor, holding the lock, is stuck announcing once more that the connection is established, which nobody reads a second time; C89) and all acknowledgements have been received. For every such peer and every configuration there is an execution that ends this way.", "quantifier": "every such peer, every configuration of the client and every execution", "why_tests_cant": "that a goroutine is stuck for good, in every execution, cannot be observed", "anchors": ["fsm.go: handleStateUpdateAsClient", "fsm.go: handleSignals", "fsm.go: monitor", "client.go: Dial", "asptm.go: handleAspInactiveAck", "aspsm.go: handleAspDownAck"]}
