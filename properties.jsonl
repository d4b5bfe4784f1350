{"id": "C01", "title": "Packet write/read round trip", "statement": "A payload given to PacketWriter.WritePacket and read back with PacketReader.ReadPacket from the produced bytes comes back unchanged, for every payload size the two-byte length field can announce (1..65535 bytes).", "quantifier": "every payload byte string of 1..65535 bytes, any spare capacity behind the frame slice", "why_tests_cant": "The size boundary cases (255/256/257/65535) and contents are 2^524280 inputs; the test suite uses sizes 3 and 257 only.", "anchors": ["packet.go:PacketWriter.WritePacket", "packet.go:PacketReader.ReadPacket", "packet.go:parseHeader", "packet.go:parsePacket"]}
{"id": "C02", "title": "Packet streams are delivered in order", "statement": "A frame made of any number of well-formed packets, with arbitrary filler bytes that are not the start byte before, between and after them, is read by successive ReadPacket calls as exactly those payloads in order, and then io.EOF.", "quantifier": "every list of payloads of legal size and every choice of filler", "why_tests_cant": "Unbounded number of packets and filler lengths.", "anchors": ["packet.go:PacketReader.ReadPacket", "packet.go:PacketWriter.WritePacket"]}
{"id": "C03", "title": "ReadPacket only returns genuine packets", "statement": "Whenever ReadPacket succeeds, the unread frame started with filler without start byte, then the start byte, then a length header that announces exactly the number of bytes returned, then the returned bytes, then a checksum byte that makes header+payload+checksum sum to zero mod 256; and the reader's unread part is exactly what follows. In particular no byte from outside the frame is ever returned.", "quantifier": "every frame content and every content/size of the memory behind the frame slice", "why_tests_cant": "Ranges over all byte strings and over memory that tests do not control (stale capacity).", "anchors": ["packet.go:PacketReader.ReadPacket", "packet.go:parsePacket"]}
{"id": "C04", "title": "Single-byte corruption is detected", "statement": "If one byte of the payload or the checksum byte of a well-formed packet (in particular of one written by WritePacket with a size for which the round trip holds) is altered in transit, ReadPacket reports an error for that packet instead of returning a payload.", "quantifier": "every legal payload, every position after the length header, every different byte value", "why_tests_cant": "All payloads x positions x 255 wrong values.", "anchors": ["crc.go:Checksum", "packet.go:parsePacket"]}
{"id": "C05", "title": "The packet read loop always terminates", "statement": "On any frame, each ReadPacket call that does not return io.EOF consumes at least one byte of the frame (whether it succeeds or fails), io.EOF is returned exactly when no start byte is left, and it is then returned forever without changing the reader.", "quantifier": "every frame and every number of calls", "why_tests_cant": "Termination over all inputs cannot be tested.", "anchors": ["packet.go:PacketReader.ReadPacket", "cmd/ipod/main.go:processFrames"]}
{"id": "C06", "title": "ReadPacket never panics", "statement": "ReadPacket returns a packet or an error for every frame; it never panics.", "quantifier": "every frame content and every spare capacity behind the slice", "why_tests_cant": "The outcome depends on the capacity and stale content of the slice, which tests do not vary; false of the code: a packet that announces more bytes than the frame holds makes the slice expression panic.", "anchors": ["packet.go:parsePacket", "packet.go:PacketReader.ReadPacket"]}
{"id": "C07", "title": "WritePacket only appends", "statement": "After any sequence of WritePacket calls, Bytes() is the concatenation, in call order, of one encoding per accepted payload; the encoding of a payload does not depend on what was written before; an empty payload is rejected with an error and leaves Bytes() unchanged.", "quantifier": "every sequence of payloads of any size", "why_tests_cant": "Unbounded histories.", "anchors": ["packet.go:PacketWriter.WritePacket", "packet.go:PacketWriter.Bytes"]}
{"id": "C08", "title": "Packet wire format", "statement": "The bytes appended by WritePacket are start byte 0x55, the length (one byte for payloads up to 255 bytes, 0x00 and a big-endian 16-bit length above), the payload, and a checksum byte such that length+payload+checksum sum to 0 mod 256.", "quantifier": "every payload of 1..65535 bytes", "why_tests_cant": "All payload sizes and contents; false of the code at exactly 256 bytes.", "anchors": ["packet.go:PacketWriter.WritePacket", "crc.go:Checksum"]}
{"id": "C09", "title": "Checksum laws", "statement": "Checksum is the two's complement of the byte sum: appending it makes the checksum zero, it does not depend on the order of the bytes, and a CRC8 hasher fed the same bytes in any chunking gives the same Sum8; Sum appends one byte and does not change the state; Reset makes it as new.", "quantifier": "every byte string and every way of cutting it into Write calls", "why_tests_cant": "Unbounded chunkings.", "anchors": ["crc.go:Checksum", "crc.go:crc8.Write", "crc.go:crc8.Sum8", "crc.go:crc8.Sum", "crc.go:crc8.Reset"]}
{"id": "C10", "title": "Command id packing", "statement": "NewLingoCmdID followed by LingoID/CmdID returns the lingo and command it was built from, for every 8-bit lingo and 16-bit command; different pairs give different ids.", "quantifier": "every lingo id 0..255 and command id 0..65535", "why_tests_cant": "16.7 million pairs, plus arithmetic wrap of 16-bit lingo arguments.", "anchors": ["lingo.go:NewLingoCmdID", "lingo.go:LingoCmdID.LingoID", "lingo.go:LingoCmdID.CmdID"]}
{"id": "C11", "title": "Command id wire round trip", "statement": "A command id that fits its lingo's width (two bytes for Extended Remote, one byte for every other lingo) is written in exactly that many bytes after the lingo byte and read back unchanged whatever follows; every registered id fits.", "quantifier": "every id and every continuation of the packet", "why_tests_cant": "All ids times all continuations.", "anchors": ["lingo.go:marshalLingoCmdID", "lingo.go:unmarshalLingoCmdID", "lingo.go:cmdIDLen"]}
{"id": "C12", "title": "Registry consistency", "statement": "After any sequence of registrations in which no payload type is registered twice, looking up a payload's id gives the id it was registered under, and the candidates for an id are exactly the types registered under it, in registration order.", "quantifier": "every sequence of registrations", "why_tests_cant": "Unbounded registration histories, and the shipped table of about 190 messages.", "anchors": ["lingo.go:storeMapping", "lingo.go:RegisterLingos", "lingo.go:LookupID", "lingo.go:Lookup"]}
{"id": "C13", "title": "Lookup picks the type by size", "statement": "Lookup returns the first candidate whose encoded size equals the payload size (no transaction) or the payload size minus two (transaction present); if none matches it returns the sole candidate with the caller's default, and reports not-found exactly when the id is unregistered or several candidates all fail to match.", "quantifier": "every id, payload size and default, for any registry", "why_tests_cant": "All sizes and registries.", "anchors": ["lingo.go:Lookup", "lingo.go:binarySize"]}
{"id": "C14", "title": "Command round trip, fixed-size messages", "statement": "Every registered message whose fields all have fixed size, built with BuildCommand, with or without a transaction, survives MarshalCmd and UnmarshalCmd: same id, same payload value, same transaction (when transactions are enabled; none otherwise).", "quantifier": "every registered fixed-size message type, every field value, every transaction, both modes of sender and receiver", "why_tests_cant": "All values of about 150 message types; false of the code for exactly one message: ACKDataDropped without transaction is decoded as ACKPending with a transaction.", "anchors": ["cmd.go:CommandSerde.MarshalCmd", "cmd.go:CommandSerde.UnmarshalCmd", "lingo.go:Lookup", "lingo-general/general.go:ACKDataDropped"]}
{"id": "C15", "title": "Command round trip, variable-size messages", "statement": "Messages with their own binary codec in both directions (names, serial, model, FID token lists and acks, sample rates, artwork formats, track titles, button states, info records) survive MarshalCmd and UnmarshalCmd when the transaction is present exactly if transactions are enabled.", "quantifier": "every value of those message types within their length-field limits, both transaction modes", "why_tests_cant": "Unbounded payload contents.", "anchors": ["cmd.go:CommandSerde.MarshalCmd", "cmd.go:CommandSerde.UnmarshalCmd", "lingo-general/general.go", "lingo-audio/audio.go", "lingo-extremote/extremote.go", "lingo-simpleremote/simpleremote.go"]}
{"id": "C16", "title": "Transaction mode depends only on the last mode-switching command", "statement": "After any history of MarshalCmd/UnmarshalCmd calls the serializer uses transactions iff the most recent RequestIdentify, IdentifyDeviceLingoes or StartIDPS that passed through it (in either direction) was StartIDPS; with none, the initial mode is kept; no other command changes the mode.", "quantifier": "every history of commands in both directions, including malformed ones", "why_tests_cant": "Unbounded histories.", "anchors": ["cmd.go:CommandSerde.handleCmdID", "cmd.go:CommandSerde.MarshalCmd", "cmd.go:CommandSerde.UnmarshalCmd"]}
{"id": "C17", "title": "Where the transaction goes", "statement": "MarshalCmd output is the command id, then the big-endian transaction iff the mode is enabled and the command has one, then the payload encoding, and nothing else.", "quantifier": "every command and mode", "why_tests_cant": "All commands.", "anchors": ["cmd.go:CommandSerde.MarshalCmd"]}
{"id": "C18", "title": "UnmarshalCmd never panics", "statement": "UnmarshalCmd returns a command or an error for every packet; it never panics.", "quantifier": "every byte string and both modes", "why_tests_cant": "All byte strings; false of the code: a RequestApplicationLaunch shorter than three bytes, or a SetFIDTokenValues with an EAProtocol token that has no body, panics with an index out of range.", "anchors": ["cmd.go:CommandSerde.UnmarshalCmd", "lingo-general/general.go:RequestApplicationLaunch.UnmarshalBinary", "lingo-general/general.go:FIDEAProtocolToken.UnmarshalBinary"]}
{"id": "C19", "title": "Failed decodes deliver no half-filled payload", "statement": "When UnmarshalCmd reports an error the returned command is still non-nil and its payload is either absent or the untouched raw bytes following the id (unknown command); a successful decode always yields a payload of a type registered under the packet's id.", "quantifier": "every byte string and both modes", "why_tests_cant": "All byte strings.", "anchors": ["cmd.go:CommandSerde.UnmarshalCmd"]}
{"id": "C20", "title": "Outgoing transaction numbers", "statement": "After TrxReset the n-th TrxNext returns n mod 65536; any 65536 consecutive calls, however they are interleaved between goroutines, return pairwise different numbers.", "quantifier": "every number of calls and every schedule of goroutines calling TrxNext atomically", "why_tests_cant": "Schedules and wrap-around.", "anchors": ["cmd.go:TrxNext", "cmd.go:TrxReset"]}
{"id": "C21", "title": "Transaction arithmetic", "statement": "Copy yields an equal transaction independent of the original (nil stays nil); Delta adds modulo 65536 and deltas compose: t.Delta(a).Delta(b) = t.Delta(a+b), t.Delta(0) = t.", "quantifier": "every transaction and every pair of deltas", "why_tests_cant": "All integers.", "anchors": ["cmd.go:Transaction.Copy", "cmd.go:Transaction.Delta"]}
{"id": "C22", "title": "Fixed-size struct encoding", "statement": "Encoding a fixed-size message writes each field big-endian in order, exactly binary.Size bytes; decoding the bytes gives the value back and leaves what follows untouched; fewer bytes give an error.", "quantifier": "every fixed-size struct type and every value", "why_tests_cant": "All struct shapes and values.", "anchors": ["cmd.go:CommandSerde.MarshalCmd", "lingo.go:binarySize", "lingo-general/general.go", "lingo-extremote/extremote.go", "lingo-dispremote/dispremote.go"]}
{"id": "C23", "title": "Button state masks", "statement": "A button mask is encoded little-endian in the fewest bytes (1..4) that hold it and decodes to itself; decoding accepts any 1 or more bytes, uses only the first four, and rejects empty data.", "quantifier": "every 32-bit mask and every byte string", "why_tests_cant": "2^32 masks and all byte strings.", "anchors": ["lingo-simpleremote/simpleremote.go:ButtonStates.MarshalBinary", "lingo-simpleremote/simpleremote.go:ButtonStates.UnmarshalBinary", "lingo-simpleremote/simpleremote.go:ContextButtonStatus"]}
{"id": "C24", "title": "FID token list round trip", "statement": "A SetFIDTokenValues list of encodable tokens, at most 255 tokens of at most 255 encoded bytes each, decodes to the same list; each token is length-delimited so the content of one token never leaks into another.", "quantifier": "every list of tokens of every encodable kind and value", "why_tests_cant": "Unbounded lists and contents.", "anchors": ["lingo-general/general.go:SetFIDTokenValues.MarshalBinary", "lingo-general/general.go:SetFIDTokenValues.UnmarshalBinary", "lingo-general/general.go:FIDTokenValue.MarshalBinary", "lingo-general/general.go:FIDTokenValue.UnmarshalBinary"]}
{"id": "C25", "title": "Every token is acknowledged", "statement": "The reply to SetFIDTokenValues acknowledges every token, in order and with the token's own id, and reaches the accessory.", "quantifier": "every decoded list of tokens", "why_tests_cant": "Unbounded lists and contents; false of the code when any token has an unknown id: the ack of the whole list then fails to encode and nothing is sent.", "anchors": ["lingo-general/handler.go:ackFIDTokenValues", "lingo-general/handler.go:ackFIDTokenValue", "lingo-general/general.go:RetFIDTokenValueACKs.MarshalBinary", "lingo-general/general.go:FIDTokenValueACK.MarshalBinary"]}
{"id": "C26", "title": "List-valued codecs round trip", "statement": "Sample-rate lists and artwork-format lists of any length decode to what was encoded; sample-rate decoding ignores an incomplete trailing record while artwork-format decoding reports it as an error.", "quantifier": "every list and every byte string", "why_tests_cant": "Unbounded lists.", "anchors": ["lingo-audio/audio.go:RetAccSampleRateCaps", "lingo-extremote/extremote.go:RetArtworkFormats"]}
{"id": "C27", "title": "Display-remote info records round trip", "statement": "RetiPodStateInfo and RetIndexedPlayingTrackInfo records of every documented info type decode to what was encoded.", "quantifier": "every info type and every field value", "why_tests_cant": "All values; false of the code for every text-valued track info (artist, album, genre, title, composer, lyrics, chapter name): the text is silently dropped when encoding and the type cannot be decoded.", "anchors": ["lingo-dispremote/dispremote.go:RetiPodStateInfo", "lingo-dispremote/dispremote.go:RetIndexedPlayingTrackInfo"]}
{"id": "C28", "title": "Strings on the wire", "statement": "iPod name, serial and track strings are sent as the bytes of the string followed by one NUL, and decode back to the same bytes including the NUL.", "quantifier": "every string", "why_tests_cant": "Unbounded strings.", "anchors": ["util.go:StringToBytes", "lingo-general/general.go:ReturniPodName", "lingo-general/general.go:ReturniPodSerialNum", "lingo-general/general.go:ReturniPodModelNum", "lingo-extremote/extremote.go:ReturnIndexedPlayingTrackTitle"]}
{"id": "C29", "title": "HID frame round trip", "statement": "A frame written with Encoder.WriteFrame and read with Decoder.ReadFrame over the same report table comes back as the frame followed only by zero padding, shorter than one report; several frames written one after another are read back one by one.", "quantifier": "every non-empty frame, every list of frames, every report table whose device-to-host reports can carry data and have distinct byte-sized ids", "why_tests_cant": "Unbounded frame sizes and report tables.", "anchors": ["hid/hid.go:Encoder.WriteFrame", "hid/hid.go:Decoder.ReadFrame", "hid/report_def.go:ReportDefs.Pick", "hid/report_def.go:ReportDefs.Find"]}
{"id": "C30", "title": "Link-control sequence", "statement": "A frame that fits one report is sent as a single Done report; a longer one as MoreToFollow, then zero or more Continue|MoreToFollow, then one Continue report; the payload parts concatenate to the frame.", "quantifier": "every frame and every usable report table", "why_tests_cant": "Unbounded frame sizes.", "anchors": ["hid/hid.go:Encoder.WriteFrame"]}
{"id": "C31", "title": "Reports respect the descriptor", "statement": "Every report written uses an id of a device-to-host report in the table and carries exactly that report's maximum payload; with the shipped tables the report chosen is the smallest that holds the rest of the frame, or a largest one if none does.", "quantifier": "every frame size and report table (the last part: every size, for the two shipped tables)", "why_tests_cant": "All sizes and tables.", "anchors": ["hid/hid.go:Encoder.WriteFrame", "hid/report_def.go:ReportDefs.Pick", "hid/report_def.go:DefaultReportDefs", "hid/report_def.go:LegacyReportDefs"]}
{"id": "C32", "title": "Decoder recovers from aborted frames", "statement": "If the reports of a frame stop anywhere before its end (or stray reports with unknown link-control values arrive), the next complete frame is still delivered intact, without any byte of the aborted one.", "quantifier": "every aborted prefix, every complete frame, every stray report", "why_tests_cant": "All crash points of the sender.", "anchors": ["hid/hid.go:Decoder.ReadFrame"]}
{"id": "C33", "title": "A frame never mixes transfers", "statement": "Whatever reports arrive, a frame returned by ReadFrame is the concatenation of the data of consecutive accepted reports that start at a Done/MoreToFollow report, or at the first report read by the call, and end at the first Done or Continue report.", "quantifier": "every sequence of reports and read errors", "why_tests_cant": "All report sequences.", "anchors": ["hid/hid.go:Decoder.ReadFrame"]}
{"id": "C34", "title": "Write errors stop the frame", "statement": "If the underlying writer fails at the k-th report, WriteFrame returns that error at once and exactly the first k reports of the frame were handed to the writer; otherwise it returns no error and all were.", "quantifier": "every frame, every failure point", "why_tests_cant": "All failure points.", "anchors": ["hid/hid.go:Encoder.WriteFrame", "hid/report_transport.go:rawReportWriter.WriteReport"]}
{"id": "C35", "title": "Raw report round trip", "statement": "A report with at least one data byte and at most 1022 written by the raw writer as one Write and delivered as one Read is read back with the same id, link control and data; reads shorter than three bytes give an error and never a report.", "quantifier": "every report and every read chunk", "why_tests_cant": "All chunks.", "anchors": ["hid/report_transport.go:rawReportReader.ReadReport", "hid/report_transport.go:rawReportWriter.WriteReport"]}
{"id": "C36", "title": "WriteFrame terminates", "statement": "WriteFrame terminates on every frame for every report table whose device-to-host reports can carry at least one byte, after at most as many reports as the frame has bytes; with a report that can carry none it makes no progress.", "quantifier": "every frame and table", "why_tests_cant": "Termination.", "anchors": ["hid/hid.go:Encoder.WriteFrame"]}
{"id": "C37", "title": "End-to-end transport", "statement": "Packets written with WritePacket, sent as HID frames through the raw report writer, read through the raw report reader, the HID decoder and the packet reader, arrive unchanged and in order.", "quantifier": "every list of frames each made of any list of legal payloads, both shipped report tables, every buffer growth policy", "why_tests_cant": "Composition over unbounded inputs.", "anchors": ["packet.go", "hid/hid.go", "hid/report_transport.go"]}
{"id": "C38", "title": "Trace message text round trip", "statement": "A trace message with any direction and any non-empty data is written as its direction sign, a space and the space-separated upper-case hex bytes, and parsing that line gives the message back; empty data or a bad direction is refused.", "quantifier": "every byte string and direction", "why_tests_cant": "Unbounded data.", "anchors": ["trace/trace.go:Msg.MarshalText", "trace/trace.go:Msg.UnmarshalText", "trace/trace.go:Dir.MarshalText"]}
{"id": "C39", "title": "Trace file round trip", "statement": "Reading a trace file produced by writing any sequence of messages yields the same messages in order, numbered 0,1,2,..., then io.EOF forever.", "quantifier": "every sequence of messages (each line within the scanner's 64 KiB limit)", "why_tests_cant": "Unbounded sequences.", "anchors": ["trace/trace.go:Writer.WriteMsg", "trace/trace.go:Reader.ReadMsg"]}
{"id": "C40", "title": "Malformed trace lines are rejected", "statement": "A non-empty trace line that is not a direction sign, a space and hex bytes is reported as an error rather than read as a message.", "quantifier": "every text line", "why_tests_cant": "All texts; false of the code: any character is accepted in the second column and anything after the first non-hex character is ignored.", "anchors": ["trace/trace.go:Msg.UnmarshalText"]}
{"id": "C41", "title": "Tracer is transparent and complete", "statement": "Reads and writes through a tracer return exactly what the wrapped device returns, and the trace contains, in order, one line per successful non-empty operation with the bytes actually transferred, and nothing else.", "quantifier": "every sequence of reads and writes with any results", "why_tests_cant": "Unbounded histories.", "anchors": ["trace/trace.go:tracer.Read", "trace/trace.go:tracer.Write"]}
{"id": "C42", "title": "Direction readers", "statement": "NewTraceDirReader delivers exactly the data of the messages of its direction, in order, one message per Read, then io.EOF, however the two directions are interleaved in the file.", "quantifier": "every interleaving of two message sequences", "why_tests_cant": "All schedules of reader and writer goroutines.", "anchors": ["trace/trace.go:traceDirReader.Read"]}
{"id": "C43", "title": "Trace queue is a two-way FIFO", "statement": "A trace queue behaves as one list: Head/Dequeue give the oldest message, DequeueDir the oldest of that direction, each message leaves exactly once, and order is kept, for any mix of operations.", "quantifier": "every sequence of Enqueue/Head/Dequeue/DequeueDir", "why_tests_cant": "Unbounded histories of a three-linked-list structure.", "anchors": ["trace/trace.go:Queue.Enqueue", "trace/trace.go:Queue.Head", "trace/trace.go:Queue.Dequeue", "trace/trace.go:Queue.DequeueDir"]}
{"id": "C44", "title": "Replaying a recorded session reproduces it", "statement": "Running the server on the incoming half of a trace recorded from a live session produces the same responses and ends in the same state as the live session.", "quantifier": "every live session (every sequence of device reads, errors included)", "why_tests_cant": "All sessions.", "anchors": ["cmd/ipod/main.go:processFrames", "trace/trace.go:NewTracer", "trace/trace.go:NewTraceDirReader"]}
{"id": "C45", "title": "A new trace contains only this session", "statement": "After serving with a trace file, the file contains exactly the trace of that session.", "quantifier": "every previous file content and every session", "why_tests_cant": "All previous contents; false of the code: the file is opened without truncation, so a longer old trace keeps its tail.", "anchors": ["cmd/ipod/main.go:newTraceFile"]}
{"id": "C46", "title": "Responses carry the request's transaction", "statement": "Every command a lingo handler emits in response to a request carries the request's transaction (none if the request had none), except the requests the device originates itself (GetDevAuthenticationInfo after EndIDPS, GetAccSampleRateCaps), which carry the next fresh number.", "quantifier": "every request of every lingo, every device and state", "why_tests_cant": "All requests and states.", "anchors": ["cmd.go:Respond", "cmd.go:Send", "lingo-general/handler.go:HandleGeneral", "lingo-extremote/handler.go:HandleExtRemote", "lingo-dispremote/handler.go:HandleDispRemote", "lingo-audio/handler.go:HandleAudio"]}
{"id": "C47", "title": "Acknowledgements name the request", "statement": "Every ACK emitted by a handler names the command id of the request it answers, and belongs to the same lingo.", "quantifier": "every request and state", "why_tests_cant": "All requests and states.", "anchors": ["lingo-general/handler.go:ack", "lingo-general/handler.go:ackSuccess", "lingo-general/handler.go:ackPending", "lingo-extremote/handler.go:ackSuccess", "lingo-dispremote/handler.go:ackSuccess"]}
{"id": "C48", "title": "Handlers emit valid messages only", "statement": "Every command emitted by a handler has a registered payload type and that type's own id, and belongs to the request's lingo except the audio start-up request.", "quantifier": "every request, device and state", "why_tests_cant": "All requests and states.", "anchors": ["lingo-general/handler.go", "lingo-extremote/handler.go", "lingo-dispremote/handler.go", "lingo-audio/handler.go", "cmd/ipod/main.go:handlePacket"]}
{"id": "C49", "title": "Remote UI mode follows Enter/Exit", "statement": "After any history of commands, the UI mode reported to the accessory is Extended iff the last EnterRemoteUIMode/ExitRemoteUIMode handled was Enter; entering or leaving sends a pending ACK then a success ACK when the mode changes and only a success ACK when it does not.", "quantifier": "every history of commands", "why_tests_cant": "Unbounded histories.", "anchors": ["lingo-general/handler.go:HandleGeneral", "cmd/ipod/general.go:DevGeneral.SetUIMode"]}
{"id": "C50", "title": "SetUIMode takes effect", "statement": "After an acknowledged SetUIMode(m), GetUIMode reports m.", "quantifier": "every mode and state", "why_tests_cant": "All states; false of the code: SetUIMode is acknowledged as successful but ignored.", "anchors": ["lingo-general/handler.go:HandleGeneral"]}
{"id": "C51", "title": "Certificate reassembly", "statement": "When an accessory sends certificate sections 0..n in order, with any other commands in between, each section but the last is acknowledged and after the last the device is handed the concatenation of the sections exactly once, whatever was received before.", "quantifier": "every number and content of sections, every earlier history, every interleaving with other commands", "why_tests_cant": "Unbounded histories.", "anchors": ["lingo-general/handler.go:HandleGeneral", "lingo-general/general.go:RetDevAuthenticationInfo"]}
{"id": "C52", "title": "Identification tokens", "statement": "At any time the device holds exactly the tokens received in SetFIDTokenValues since the last StartIDPS, in order.", "quantifier": "every history of commands", "why_tests_cant": "Unbounded histories.", "anchors": ["lingo-general/handler.go:HandleGeneral", "cmd/ipod/general.go:DevGeneral.StartIDPS", "cmd/ipod/general.go:DevGeneral.SetToken"]}
{"id": "C53", "title": "Every answered request reaches the wire", "statement": "Whenever a handler emits a response, a non-empty encoded packet for it is written to the transport.", "quantifier": "every request and state", "why_tests_cant": "All requests; false of the code for six request types whose responses contain slices that cannot be encoded (e.g. GetNowPlayingFocusApp, GetiPodAuthenticationInfo, GetIndexedEQProfileName): the response is silently dropped.", "anchors": ["cmd/ipod/main.go:processFrames", "cmd.go:CommandSerde.MarshalCmd", "lingo-general/general.go:RetNowPlayingFocusApp", "lingo-general/general.go:RetiPodAuthenticationInfo"]}
{"id": "C54", "title": "The server survives any input", "statement": "No sequence of reports from the accessory makes the server panic.", "quantifier": "every sequence of report reads", "why_tests_cant": "All inputs and histories; false of the code (consequences of ReadPacket and UnmarshalCmd panics), holds when every packet stays inside its frame and is not one of the two malformed messages.", "anchors": ["cmd/ipod/main.go:processFrames"]}
{"id": "C55", "title": "Responses are sent in the mode of their request", "statement": "The response to a request received with a transaction while transactions were enabled carries that transaction on the wire.", "quantifier": "every frame and mode", "why_tests_cant": "All batches of packets in a frame; false of the code: all packets of a frame are decoded before any response is encoded, so a later IdentifyDeviceLingoes in the same frame strips transactions from earlier responses.", "anchors": ["cmd/ipod/main.go:processFrames", "cmd.go:CommandSerde.MarshalCmd"]}
{"id": "C56", "title": "One frame per response, in order", "statement": "For every frame read, the server writes one HID frame per encodable response, in the order the handlers emitted them, which is the order of the packets in the frame; decoding what it wrote gives back exactly the emitted commands' packets.", "quantifier": "every frame, mode and state", "why_tests_cant": "All frames and states.", "anchors": ["cmd/ipod/main.go:processFrames"]}
{"id": "C57", "title": "Transport errors are survivable", "statement": "A read error other than io.EOF produces no response and leaves mode, device and counters unchanged, and the server keeps reading; io.EOF ends it.", "quantifier": "every sequence of read results", "why_tests_cant": "All error schedules.", "anchors": ["cmd/ipod/main.go:processFrames", "hid/hid.go:Decoder.ReadFrame"]}
{"id": "C58", "title": "Trace viewing shows every frame", "statement": "Viewing a trace terminates and decodes every complete frame of both directions.", "quantifier": "every trace", "why_tests_cant": "Termination over all traces; completeness is false of the code: an incomplete frame at the end of one direction stops the dump and drops what remains of the other direction.", "anchors": ["cmd/ipod/main.go:dumpTrace"]}
{"id": "C59", "title": "Authentication hand-shake", "statement": "Digital audio start-up (GetAccSampleRateCaps) is sent exactly when the accessory's authentication info is complete (version below 2, or last certificate section), and the signature is requested exactly after the last section of a version-2 certificate.", "quantifier": "every command and state", "why_tests_cant": "All commands and states.", "anchors": ["cmd/ipod/main.go:handlePacket", "lingo-general/handler.go:HandleGeneral", "lingo-audio/handler.go:Start"]}
{"id": "C60", "title": "Lingo listing is deterministic", "statement": "DumpLingos lists every registered command id exactly once in increasing order; the text does not depend on map iteration order.", "quantifier": "every registry and every iteration order of the map", "why_tests_cant": "Go randomises map iteration; sort.Slice is not stable.", "anchors": ["lingo.go:DumpLingos"]}
{"id": "C61", "title": "Unknown general commands are refused politely", "statement": "A General-lingo packet with an unregistered command id is answered with exactly one ACK with status unknown-id naming that command; unknown commands of other lingos are not answered.", "quantifier": "every packet with an unregistered id, every state", "why_tests_cant": "All packets.", "anchors": ["cmd.go:CommandSerde.UnmarshalCmd", "lingo-general/handler.go:HandleGeneral", "cmd/ipod/main.go:handlePacket"]}
{"id": "C62", "title": "Mask names", "statement": "The text of a lingo mask or context-button mask lists exactly the names of the set bits, in increasing bit order; distinct masks have distinct texts.", "quantifier": "every 32-bit mask", "why_tests_cant": "2^32 masks.", "anchors": ["lingo-general/general.go:LingoMask.String", "lingo-simpleremote/simpleremote.go:ContextButtonMask.String"]}
{"id": "C63", "title": "Decoded data does not change afterwards", "statement": "A command decoded from a frame keeps its value when later frames are read into the same decoder.", "quantifier": "every packet and every later memory content", "why_tests_cant": "Aliasing across all later reads; false of the code for EAProtocol tokens (kept by the device) and unknown payloads, which point into the decoder's buffer.", "anchors": ["lingo-general/general.go:FIDEAProtocolToken.UnmarshalBinary", "cmd.go:CommandSerde.UnmarshalCmd", "hid/hid.go:Decoder.ReadFrame"]}
{"id": "C64", "title": "Every request gets the protocol's replies", "statement": "For every received command, the messages sent in answer are, in number, kind and order, those the protocol prescribes for that command (a return message, an ACK, several of them, or nothing).", "quantifier": "every received command, device and state", "why_tests_cant": "All commands, devices and states.", "anchors": ["lingo-general/handler.go:HandleGeneral", "lingo-extremote/handler.go:HandleExtRemote", "lingo-dispremote/handler.go:HandleDispRemote", "lingo-audio/handler.go:HandleAudio", "cmd/ipod/main.go:handlePacket"]}
{"id": "C65", "title": "Acknowledgement status", "statement": "The status of an ACK says what happened: success for handled requests, unknown-id for unknown general commands, command-failed for the requests the emulator cannot serve, pending before a mode change.", "quantifier": "every received command, device and state", "why_tests_cant": "All commands, devices and states.", "anchors": ["lingo-general/handler.go:HandleGeneral", "lingo-extremote/handler.go:HandleExtRemote", "lingo-dispremote/handler.go:HandleDispRemote"]}
{"id": "C66", "title": "Replies report the device", "statement": "Replies carry the device's values (name, software version, serial number, lingo version, maximum payload, preferences, event mask, options) for the class or lingo asked about, and setters store what the accessory sent.", "quantifier": "every request, device and state", "why_tests_cant": "All requests, devices and states.", "anchors": ["lingo-general/handler.go:HandleGeneral"]}
{"id": "C67", "title": "Meaning of received variable-size messages", "statement": "A packet of a variable-size message is accepted exactly if the bytes behind id and transaction are a well-formed message and then delivers exactly the value they denote; this covers authentication info, identification tokens, track infos, artwork lists, sample rates and button masks.", "quantifier": "every byte string, every variable-size message, with and without transaction", "why_tests_cant": "All byte strings, including those no encoder produces.", "anchors": ["cmd.go:CommandSerde.UnmarshalCmd", "lingo-general/general.go:RetDevAuthenticationInfo.UnmarshalBinary", "lingo-general/general.go:FIDTokenValue.UnmarshalBinary", "lingo-dispremote/dispremote.go:RetiPodStateInfo.UnmarshalBinary", "lingo-extremote/extremote.go:RetArtworkFormats.UnmarshalBinary"]}
{"id": "C68", "title": "Resynchronisation inside a frame", "statement": "From any frame the packet reader delivers exactly the packets found by scanning from start byte to start byte: where a valid packet begins it is taken whole, where none begins only the start byte is skipped; every frame has exactly one such scan.", "quantifier": "every frame and every memory content behind it", "why_tests_cant": "All byte strings, including frames with damaged packets that contain valid ones.", "anchors": ["packet.go:PacketReader.ReadPacket", "cmd/ipod/main.go:processFrames"]}
{"id": "C69", "title": "Answers with fixed content", "statement": "The requests about the emulated player's state (playback, display, equalizer, shuffle, battery, volume, time, track infos, artwork formats, audio attributes, signatures) are answered with the exact packet of the emulated player, byte for byte and under the request's transaction; infos it does not know are not answered.", "quantifier": "every request packet with any argument bytes, transaction, mode, device, clock and state", "why_tests_cant": "All packets, states and clock values.", "anchors": ["lingo-general/handler.go:HandleGeneral", "lingo-dispremote/handler.go:HandleDispRemote", "lingo-extremote/handler.go:HandleExtRemote", "lingo-audio/handler.go:HandleAudio"]}
{"id": "C70", "title": "Names of values", "statement": "The text of every value of every enumeration (lingo bits, context buttons, accessory capabilities and infos, state infos, play statuses, track infos) is the name of the constant, or type and decimal number for a value without one; distinct values have distinct texts.", "quantifier": "every 8- or 32-bit value of each type", "why_tests_cant": "2^32 values; the generated code cuts names out of one long string by index tables.", "anchors": ["lingo-general/lingobit_string.go:LingoBit.String", "lingo-simpleremote/contextbuttonbit_string.go:ContextButtonBit.String", "lingo-general/accinfotype_string.go:AccInfoType.String", "lingo-general/acccapbit_string.go:AccCapBit.String", "lingo-dispremote/infotype_string.go:InfoType.String", "lingo-dispremote/playstatustype_string.go:PlayStatusType.String", "lingo-dispremote/trackinfotype_string.go:TrackInfoType.String"]}
{"id": "C71", "title": "Texts of ids and transactions", "statement": "The texts of a command id show lingo and command in hexadecimal with the digits they have on the wire, distinct ids having distinct texts; both texts of a transaction show its number in hexadecimal with four digits.", "quantifier": "every lingo, command and transaction", "why_tests_cant": "All values; false of the code for the Go-syntax text of a transaction.", "anchors": ["lingo.go:LingoCmdID.String", "lingo.go:LingoCmdID.GoString", "cmd.go:Transaction.String", "cmd.go:Transaction.GoString"]}
{"id": "C72", "title": "Identity of the emulated iPod", "statement": "Whatever happened before, the emulated iPod answers the questions about itself (name, software version, serial number, protocol versions per lingo, maximum payload, preferences, options per lingo, event masks) with the same bytes.", "quantifier": "every state, transaction and mode, every lingo and preference class asked about", "why_tests_cant": "All states; every lingo and class number.", "anchors": ["cmd/ipod/general.go:DevGeneral.Name", "cmd/ipod/general.go:DevGeneral.SoftwareVersion", "cmd/ipod/general.go:DevGeneral.SerialNum", "cmd/ipod/general.go:DevGeneral.LingoProtocolVersion", "cmd/ipod/general.go:DevGeneral.LingoOptions", "cmd/ipod/general.go:DevGeneral.MaxPayload", "lingo-general/handler.go:HandleGeneral"]}
{"id": "C73", "title": "Settings take effect", "statement": "A preference or event notification mask whose setting was acknowledged with success is what the emulated iPod reports when asked next.", "quantifier": "every state, preference class, setting and mask", "why_tests_cant": "All settings; false of the code, which acknowledges and forgets.", "anchors": ["cmd/ipod/general.go:DevGeneral.SetPrefSettingID", "cmd/ipod/general.go:DevGeneral.PrefSettingID", "cmd/ipod/general.go:DevGeneral.SetEventNotificationMask", "cmd/ipod/general.go:DevGeneral.EventNotificationMask", "lingo-general/handler.go:HandleGeneral"]}
{"id": "C74", "title": "The server answers while it reads", "statement": "What the server has written whenever it calls Read again is all it would ever write if nothing more came: no answer is postponed. Reading more only adds frames behind those already written. The server stops exactly when a Read returns io.EOF, no data and no other error stops it.", "quantifier": "every device, clock, table of reports, sequence of results of Read and state", "why_tests_cant": "All sequences of reads, of any length, at every intermediate moment.", "anchors": ["cmd/ipod/main.go:processFrames", "hid/hid.go:Decoder.ReadFrame", "hid/report_transport.go:rawReportReader.ReadReport"]}
{"id": "C75", "title": "Replaying a trace ends", "statement": "Replaying a trace file ends: after the last line the server stops.", "quantifier": "every content of a file, every way its reading can end, every device and state", "why_tests_cant": "All files; an endless run cannot be observed. False of the code for files with an over-long line or a read error.", "anchors": ["cmd/ipod/main.go:processFrames", "trace/trace.go:Reader.ReadMsg", "trace/trace.go:NewTraceDirReader"]}
{"id": "C76", "title": "Sending a trace", "statement": "The send command transmits to the device the incoming reports of a trace file, all of them, unchanged and in order.", "quantifier": "every list of messages in a trace file, every recorded session", "why_tests_cant": "All traces; false of the code, which stops without a word at the first short report.", "anchors": ["cmd/ipod/main.go:main", "trace/trace.go:NewTraceDirReader"]}
{"id": "C77", "title": "Trace of two goroutines", "statement": "While one goroutine reads the traced device and another writes to it, the trace file consists of whole lines, holds what passed in either direction completely and in order, and holds both directions in the order in which they passed.", "quantifier": "every sequence of results of the device and every schedule of the two goroutines", "why_tests_cant": "All interleavings; the order between the directions is not kept by the code.", "anchors": ["trace/trace.go:tracer.Read", "trace/trace.go:tracer.Write", "cmd/ipod/main.go:main"]}
{"id": "C78", "title": "A session over HID reports is a session over packets", "statement": "If an accessory sends each batch of packets as one frame cut into HID reports by the encoder of this library, the server answers exactly as if it had been handed the packets themselves: decode each packet of the batch in the current transaction mode, run the handlers, encode the responses. The server survives the reports iff the conversation over packets exists, and an accessory which reads the answered reports with the decoder and the packet reader of this library gets exactly the encoded responses, one per frame, in order, and nothing else. In particular an accessory asking for the identity of the iPod over any report table reads back exactly the bytes of the identity.", "quantifier": "all report tables with sizes up to 1024, all sessions, all packets of 1..65535 bytes other than 256, all transaction modes, all devices", "why_tests_cant": "the composition of six components over unboundedly long sessions", "anchors": ["cmd/ipod/main.go:processFrames", "hid/hid.go:Decoder.ReadFrame", "hid/hid.go:Encoder.WriteFrame", "packet.go:PacketReader.ReadPacket", "packet.go:PacketWriter.WritePacket"]}
{"id": "C79", "title": "Wire format of every message", "statement": "The registered messages are exactly the 195 of the wire table (lingo, command id, name), in registration order. For each of the 163 with a fixed layout: a packet made of its id, an optional transaction and any body of the length of the layout is received as that message, with exactly the field values the layout assigns to the bytes (big-endian unsigned, two's complement, flag, raw bytes); and every value of the message is sent with a body of that length in which the layout reads the fields of the value. For the 32 others the table says that no fixed layout exists.", "quantifier": "all 195 messages, all bodies, all values, all transactions, both modes", "why_tests_cant": "a swapped or mistyped field encodes and decodes consistently, so round-trip tests accept it", "anchors": ["lingo-general/general.go:Lingos", "lingo-extremote/extremote.go:Lingos", "lingo-dispremote/dispremote.go:Lingos", "lingo.go:RegisterLingos", "cmd.go:CommandSerde.MarshalCmd", "cmd.go:CommandSerde.UnmarshalCmd"]}
{"id": "C80", "title": "Answers of the emulated iPod fit into packets", "statement": "Every answer of the emulated iPod to any command fits into a packet which the packet reader gives back: it has at most 45 bytes, unless it acknowledges identification tokens, when its length is determined by the tokens and at most 1280. So a session with the emulated iPod over HID reports is a session over packets, with no condition on the answers.", "quantifier": "all states of the emulated iPod, all commands, both transaction modes, all report tables, all sessions", "why_tests_cant": "the longest answers depend on unboundedly many token lists; false of the code for one length of acknowledgements only", "anchors": ["lingo-general/handler.go:HandleGeneral", "lingo-general/general.go:RetFIDTokenValueACKs.MarshalBinary", "cmd/ipod/general.go:DevGeneral", "packet.go:PacketWriter.WritePacket", "cmd/ipod/main.go:processFrames"]}
{"id": "C81", "title": "Layout of log lines", "statement": "A log entry takes the form: four letters of the level, time in seconds with six decimals since the start in brackets, message padded to 44 columns, the fields by increasing keys as key=value, newline. The text of an entry does not depend on the iteration order of the fields; an entry without newlines is one line; with colours the text is the same up to escape sequences, the first being the colour of the level; level, time, message and fields can be read back from a line.", "quantifier": "all levels, all non-negative times, all messages, all sets of fields, all iteration orders of the map", "why_tests_cant": "all iteration orders of a map and all texts", "anchors": ["cmd/ipod/formatter.go:TextFormatter.Format", "cmd/ipod/formatter.go:TextFormatter.print"]}
{"id": "C82", "title": "Log of the server", "statement": "The server logs every event once and in order: each frame read (length or error), each packet found (length or error), each change of the transaction mode, each command received (id, transaction, type, error), each command answered, each packet and frame sent with its length or error, and the end. Logging does not change what it does. Errors are exactly the lines of the error level; the transaction mode can be read off the log; the lengths shown for frames sent are those of the frames written to the accessory.", "quantifier": "all sequences of reads, all write errors, all devices and their own log lines, all states", "why_tests_cant": "unbounded sessions; the log claims frames that are never sent when an answer cannot be encoded", "anchors": ["cmd/ipod/main.go:processFrames", "cmd/ipod/main.go:logFrame", "cmd/ipod/main.go:logPacket", "cmd/ipod/main.go:logCmd", "cmd/ipod/log.go:FrameLogEntry", "cmd/ipod/log.go:CommandLogEntry", "cmd.go:CommandSerde.MarshalCmd"]}
{"id": "C83", "title": "Log of the trace viewer", "statement": "What the viewer prints for a trace is, for the frames it shows, in the order of the trace: the length of the frame or the error, each packet or error, each change of the transaction mode, each command with id, transaction and type, all marked with the direction; and EOF at the end. The lines about frames of a direction show the lengths of the frames of that direction in order.", "quantifier": "all traces that can be read, all report tables", "why_tests_cant": "all traces; the interleaving of the directions", "anchors": ["cmd/ipod/main.go:dumpTrace", "cmd/ipod/main.go:dirPrefix", "cmd/ipod/log.go:CommandLogEntry"]}
{"id": "C84", "title": "What the emulated iPod logs", "statement": "At the end of the identification the emulated iPod logs one entry listing the tokens received since the last start, in order, each with the name of its kind, the capabilities by name, the kind and value of accessory infos. When the last section of a certificate arrives it logs the common name of the certificate made of all sections in order, or the error of the parser. It logs nothing else of its own.", "quantifier": "all sequences of commands, all tokens, all splits of a certificate into sections with other commands in between", "why_tests_cant": "unbounded histories of commands; all token lists and capability masks", "anchors": ["cmd/ipod/general.go:DevGeneral.EndIDPS", "cmd/ipod/general.go:DevGeneral.AccAuthCert", "lingo-general/handler.go:HandleGeneral", "cmd/ipod/main.go:handlePacket"]}
{"id": "C85", "title": "Identification and authentication of an accessory", "statement": "Whatever happened before, an accessory that starts the identification, sends tokens of known kinds in any number of packets, ends it, sends its certificate in any number of sections and a signature, receives exactly: an acknowledgement of the start, one acknowledgement per token, acceptance and the request for the certificate with transaction 1, an acknowledgement per section, after the last the request for the sample rates with transaction 2, acceptance and a zero challenge, acceptance of the signature, all under its own transactions. Afterwards transactions are on and the device has been started, given the tokens in order, told the end and handed the concatenated certificate. Likewise, without transactions, for an accessory that identifies itself by its lingoes. This holds for packets and over HID reports.", "quantifier": "all states of the server, all devices, all token lists, all transactions, all splits of all certificates, all signatures, all report tables", "why_tests_cant": "unbounded sessions over several layers; all splits of tokens and certificate", "anchors": ["lingo-general/handler.go:HandleGeneral", "cmd/ipod/main.go:handlePacket", "cmd/ipod/main.go:processFrames", "lingo-audio/handler.go:Start", "cmd.go:CommandSerde.UnmarshalCmd", "cmd.go:TrxReset", "cmd.go:TrxNext"]}
{"id": "C86", "title": "Ids from struct tags", "statement": "Registering a struct gives each field the id written in its tag as id:\"number\", where the first pair with the key counts, other pairs and spaces do not matter, and a number is any integer literal of Go up to 65535: decimal, octal with a leading zero, or with the prefixes 0b, 0o, 0x of either case, digits grouped by single underscores. A field whose tag gives no such number stops the registration with an error: the fields before it are registered, it and those after are not. All 195 tags written in the five lingo packages are well-formed, so the errors which the packages ignore never occur, and they yield the ids the other properties speak of.", "quantifier": "all tag texts made of well-formed pairs, all numbers, all structs, all registries, any reading of escapes", "why_tests_cant": "tests see only the tags that exist; the grammar of numbers and tags is infinite", "anchors": ["lingo.go:parseIdTag", "lingo.go:RegisterLingos", "lingo-audio/audio.go:Lingos", "lingo-dispremote/dispremote.go:Lingos", "lingo-extremote/extremote.go:Lingos", "lingo-general/general.go:Lingos", "lingo-simpleremote/simpleremote.go:Lingos"]}
{"id": "C87", "title": "A recorded session", "statement": "The trace file of a session contains the reports of every frame received, followed by the reports of the answers to it, in the order of the session, then those of a frame not yet complete. Viewing that file ends without a panic and shows of every frame received the commands the server took from it and then its answers, each as a command of the same id, and nothing else. A server in the state in which the session began, fed with the file, writes the same frames and ends in the same state; sending the file gives the device the recorded reads in order.", "quantifier": "all sessions: all devices, states, report tables and sequences of reads", "why_tests_cant": "a round trip through server, transport, trace file and viewer over sessions of any length", "anchors": ["cmd/ipod/main.go:main", "cmd/ipod/main.go:processFrames", "cmd/ipod/main.go:dumpTrace", "trace/trace.go:tracer.Read", "trace/trace.go:tracer.Write", "hid/hid.go:Encoder.WriteFrame", "hid/hid.go:Decoder.ReadFrame"]}
{"id": "C88", "title": "The commands of the program", "statement": "A command whose arguments are all there and whose files can be opened opens exactly its device, its input and its trace file, in this order, and runs with the report table chosen by -l; otherwise it opens nothing beyond the first thing that fails, writes no file and no frame, and ends with status 1. The usage is shown iff an argument is missing, and then nothing is opened. Only the file given with -w is changed, by serve and send. serve ends with status 0 iff the device ends; view ends with status 1 iff a line of the file is not readable. Viewing a session recorded to a new file with -w shows that session, and replaying it writes the same frames.", "quantifier": "all arguments, all file systems, all devices, sessions and schedules, both report tables", "why_tests_cant": "every combination of missing arguments, refused files and sessions; needs devices", "anchors": ["cmd/ipod/main.go:main", "cmd/ipod/main.go:openDevice", "cmd/ipod/main.go:openTraceFile", "cmd/ipod/main.go:newTraceFile"]}
{"id": "C89", "title": "Any file read as a trace", "statement": "Whatever a file contains, reading it as a trace delivers, line by line up to the first of 64 KiB or more, the message of each accepted line, numbered from zero without gaps, an error for each line that is neither empty nor accepted (after which reading goes on), and then one and the same error for ever. Reading one direction delivers the data of that direction in order, cut to the room given, with the same errors. The viewer accepts the file iff none of these errors occurs. A session written over an older, longer file is delivered first, whole.", "quantifier": "all byte contents, all read errors at the end, all directions and buffer sizes, any number of calls", "why_tests_cant": "all byte strings, in particular malformed and half overwritten files", "anchors": ["trace/trace.go:Reader.ReadMsg", "trace/trace.go:NewReader", "trace/trace.go:Msg.UnmarshalText", "trace/trace.go:traceDirReader.Read", "cmd/ipod/main.go:dumpTrace", "cmd/ipod/main.go:newTraceFile"]}
{"id": "C90", "title": "The bytes of a message", "statement": "Encoding a message yields exactly its wire form: numbers big-endian in order, texts as they are, lists with their number of elements and the length of each, masks of buttons little-endian in the fewest bytes, infos behind the byte of their kind. A message that has no wire form (a missing token or acknowledgement, a list in a message without encoder) is refused with an error.", "quantifier": "all message types, all values", "why_tests_cant": "all values of all 195 message types, in particular long lists and missing parts", "anchors": ["cmd.go:CommandSerde.MarshalCmd", "lingo-general/general.go:SetFIDTokenValues.MarshalBinary", "lingo-general/general.go:FIDTokenValue.MarshalBinary", "lingo-general/general.go:FIDTokenValueACK.MarshalBinary", "lingo-extremote/extremote.go:ReturnIndexedPlayingTrackInfo.MarshalBinary", "lingo-dispremote/dispremote.go:RetiPodStateInfo.MarshalBinary", "lingo-dispremote/dispremote.go:RetIndexedPlayingTrackInfo.MarshalBinary", "lingo-simpleremote/simpleremote.go:ButtonStates.MarshalBinary"]}
{"id": "C91", "title": "A new identification starts afresh", "statement": "An accessory that starts the identification is served as by a freshly started iPod: what is written from then on, to whatever it sends, does not depend on anything that happened before. In general the answers depend on the transaction mode, the transaction counter, the UI mode and the time only, never on the tokens or certificates received.", "quantifier": "all states of the server, all sequences of reads, all clocks, all devices", "why_tests_cant": "two arbitrary histories followed by an arbitrary continuation", "anchors": ["lingo-general/handler.go:HandleGeneral", "cmd/ipod/general.go:DevGeneral.StartIDPS", "cmd/ipod/general.go:DevGeneral.UIMode", "cmd/ipod/main.go:processFrames", "cmd.go:TrxReset"]}
{"id": "C92", "title": "Grouping of packets into frames", "statement": "It makes no difference to the emulated iPod how an accessory groups its packets into frames: the answers, their order and the state afterwards are those of the packets one by one. Filler between packets and failing reads between frames do not matter either.", "quantifier": "all sequences of packets, all groupings into frames, all devices, all states of the server", "why_tests_cant": "all ways of grouping all sequences of packets; false of the code only when the mode changes amid a frame", "anchors": ["cmd/ipod/main.go:processFrames", "cmd.go:CommandSerde.UnmarshalCmd", "cmd.go:CommandSerde.MarshalCmd", "packet.go:PacketReader.ReadPacket"]}
{"id": "C93", "title": "How much is sent and kept", "statement": "A command has at most three answers. In any session the emulated iPod sends at most ten times as many bytes as it received, and what it keeps between frames (certificate and identification tokens) grows by at most what was received and stays within a fixed bound.", "quantifier": "all frames, all sessions, all states of the server", "why_tests_cant": "amplification and growth over sessions of any length and any bytes", "anchors": ["cmd/ipod/main.go:processFrames", "lingo-general/handler.go:HandleGeneral", "lingo-dispremote/handler.go:HandleDispRemote", "lingo-extremote/handler.go:HandleExtRemote", "cmd/ipod/general.go:DevGeneral"]}
{"id": "C94", "title": "Lost reports", "statement": "If reports of some frames are lost on the way, the frames of which all reports arrived are delivered, in order, and nothing else is.", "quantifier": "all report tables, all sequences of frames, all losses", "why_tests_cant": "all subsets of the reports of all sequences of frames; needs a characterisation of the reassembly", "anchors": ["hid/hid.go:Decoder.ReadFrame", "hid/hid.go:Encoder.WriteFrame"]}
{"id": "C95", "title": "Commands through the whole stack", "statement": "An accessory that uses the library itself (BuildCommand, MarshalCmd, WritePacket, WriteFrame on the way out; ReadFrame, ReadPacket, UnmarshalCmd on the way in) and makes requests of the emulated iPod, one per frame, over HID reports, gets exactly the conversation of commands: the server handles exactly the commands that were built, one after another, with the transaction only if transactions are on, and the accessory decodes exactly the commands the handlers answered, in order and without error.", "quantifier": "For all report tables that can carry frames, all growth of buffers, all states of the server, and all sequences of requests.", "why_tests_cant": "It composes every layer in both directions, for unbounded sequences of commands and every fragmentation into reports.", "anchors": ["cmd.go:CommandSerde.MarshalCmd", "cmd.go:CommandSerde.UnmarshalCmd", "packet.go:PacketWriter.WritePacket", "packet.go:PacketReader.ReadPacket", "hid/hid.go:Encoder.WriteFrame", "hid/hid.go:Decoder.ReadFrame", "cmd/ipod/main.go:processFrames"]}
{"id": "C96", "title": "Repeated requests", "statement": "An accessory that sends a request again, because it saw no answer, gets the same answer again, and the device is left in the state it was left in by the first.", "quantifier": "For all states of the server, all requests the decoder can deliver (also undecodable ones), all clocks, and all frames carrying one of them.", "why_tests_cant": "It speaks about every request in every state; which requests accumulate is found only by looking at all of them.", "anchors": ["lingo-general/handler.go:HandleGeneral", "cmd/ipod/general.go:DevGeneral", "cmd/ipod/main.go:processFrames", "cmd.go:CommandSerde.UnmarshalCmd"]}
{"id": "C97", "title": "Independence of the Go release", "statement": "Library and server treat packets and sessions alike whichever Go release they are built with: those named by the project or a current one.", "quantifier": "For all packets in both modes, all frames and all sessions of the server, all devices, clocks and states.", "why_tests_cant": "A test run uses one release; the releases differ only in what a nil interface does in a size computation, reached by tokens no test sends.", "anchors": ["lingo-general/general.go:FIDTokenValue.UnmarshalBinary", "lingo-general/general.go:FIDTokenValueACK.MarshalBinary", "cmd.go:CommandSerde.UnmarshalCmd", "cmd/ipod/main.go:processFrames", "go.mod"]}
{"id": "C98", "title": "The send command as a whole", "statement": "`send` hands the reports of a trace to the device, in order and all of them, whatever the device sends back, and then ends successfully.", "quantifier": "For all answers of the device (also errors), all outcomes of the writes, all schedules of the two goroutines, all traces, devices behind the server, clocks and states.", "why_tests_cant": "Schedules and answers are unbounded; a test sees one interleaving, and the command never returns for it to be judged.", "anchors": ["cmd/ipod/main.go:main", "cmd/ipod/main.go:processFrames", "hid/hid.go:Decoder.ReadFrame", "trace/trace.go:tracer"]}
{"id": "C99", "title": "Independence of the lingo packages", "statement": "A program that imports only some of the lingo packages treats the commands of these lingos exactly as one that imports all, whatever the order of initialisation; commands of other lingos are unknown to it, with id and body kept, and messages of other packages are refused without any effect.", "quantifier": "For all sets of packages in all orders, all packets in both modes, all messages, all requests, counters and outputs so far.", "why_tests_cant": "Tests run with one set of imports each; the table of commands is global and filled by side effects of imports.", "anchors": ["lingo.go:RegisterLingos", "lingo.go:Lookup", "lingo.go:LookupID", "cmd.go:CommandSerde.UnmarshalCmd", "cmd.go:BuildCommand", "cmd.go:Respond", "cmd.go:Send"]}
{"id": "C100", "title": "What the checksum detects", "statement": "If payload and checksum of a packet arrive altered but in the same number, ReadPacket returns the altered payload exactly if the sum of the bytes is the same modulo 256, else the checksum error. So reordered payload bytes are never detected; two inverted bits in two bytes are detected unless they are the same bit, set in one byte and not in the other, or both the highest bit; a byte lost from a packet is detected unless the byte that follows the packet has the same value, so that before another packet exactly a lost 0x55 goes undetected; an inserted byte is detected unless it equals the checksum.", "quantifier": "For all packets of both header forms, all replacements of payload and checksum, all bytes in front without a start byte, all bytes behind, all spare capacity.", "why_tests_cant": "Tests alter single packets in single places; which alterations slip through is a statement about all pairs of packets.", "anchors": ["packet.go:PacketReader.ReadPacket", "packet.go:parsePacket", "packet.go:PacketWriter.WritePacket", "crc.go:Checksum"]}
{"id": "C101", "title": "Reports that arrive several times", "statement": "If reports of written frames arrive several times in a row, the decoder delivers exactly this: a frame of one report as often as the report comes; of a frame of several reports the first counts once however often it comes, the ones between are appended as often as they come, and every further arrival of the last makes a further frame of its data alone. So the frames are delivered unchanged and once each exactly if no report is repeated except the first of frames of several reports.", "quantifier": "For all report tables (distinct byte ids, at least one byte of data, an input report), all sequences of frames, all numbers of repetitions of each report, all states of the decoder's buffer.", "why_tests_cant": "Tests decode single sequences of reports; which repetitions are harmless is a statement about all of them.", "anchors": ["hid/hid.go:Decoder.ReadFrame", "hid/hid.go:Encoder.WriteFrame"]}
{"id": "C102", "title": "Different messages have different bytes", "statement": "Two commands whose encodings are the same packet are the same message with the same transaction. For messages of fixed size this holds whatever the transaction modes of the two senders, with exactly one exception: ACKDataDropped without transaction has the bytes of the ACKPending whose transaction is its status and command and whose status and command are its session.", "quantifier": "For all pairs of message types and values, all transactions, both modes of either serializer.", "why_tests_cant": "A collision is a statement about all pairs of commands; tests encode single ones.", "anchors": ["cmd.go:CommandSerde.MarshalCmd", "cmd.go:BuildCommand", "lingo-general/general.go:ACKDataDropped", "lingo-general/general.go:ACKPending"]}
{"id": "C103", "title": "What the errors of the command codec say", "statement": "The error returned for a packet that cannot be decoded names the cause exactly: 'EOF' or 'unexpected EOF' for the part that is missing entirely or partly, 'unknown cmd' with the id in hexadecimal when no message is registered for id and length, and for a refused body the reason ('short packet', 'invalid data', 'unknown info type', 'unknown AccInfoToken type', a value without fixed size with the name of its type), with the step that failed in front. There is a text exactly when decoding fails; packets with different unknown ids get different texts; and every text begins with 'ipod.Command unmarshal: ' except when the two bytes of a transaction are missing. Likewise the error of encoding: no message, a token or acknowledgement that cannot be written, a message type without size and encoder.", "quantifier": "For all packets, both modes, all commands, any wording of encoding/binary's two texts.", "why_tests_cant": "The tests check that some packets fail, never what the error says; that a text is given for every cause and for no other is a statement about all packets.", "anchors": ["cmd.go:CommandSerde.UnmarshalCmd", "cmd.go:CommandSerde.MarshalCmd", "lingo-general/general.go:FIDTokenValue.UnmarshalBinary", "lingo-general/general.go:RetDevAuthenticationInfo.UnmarshalBinary", "lingo-dispremote/dispremote.go:RetIndexedPlayingTrackInfo.UnmarshalBinary", "lingo-simpleremote/simpleremote.go:ButtonStates.UnmarshalBinary"]}
{"id": "C104", "title": "What the log says went wrong", "statement": "Every error of trace files, transport and packets says its cause, and the log repeats it. A line of a trace file that is not a message is called a short message (under four bytes), an unknown direction symbol (with the character), or bad data; a direction text of another length is shown byte by byte in decimal; a message without data or with an unknown direction cannot be written down and says so. Loading a trace for the viewer fails exactly if some line is refused, a line is too long or the file cannot be read further, and the fatal message is the text of the first such cause. A frame that cannot be read says what the device said, that reads return no data, or which report id is unknown; one that cannot be written, what the device said or that no report matches. A place in a frame where no packet begins says 'unexpected EOF' if fewer than three bytes follow the start byte and 'invalid checksum' otherwise. The log of the server and of the viewer has one line for every event, in order, and every line about an error carries that text; on the screen each line shows level, time, message and sorted fields with numbers in decimal. The texts change nothing else.", "quantifier": "For all file contents and endings, all device reads and write failures with any text, all report tables, frames, handlers and wordings of encoding/binary and of the operating system's errors (io.EOF and bufio's 'token too long' fixed).", "why_tests_cant": "The tests never look at the log or at the text of an error; that each line of the log names the true cause, for every trace file, device behaviour and frame, is a statement about all runs.", "anchors": ["trace/trace.go:Dir.UnmarshalText", "trace/trace.go:Msg.UnmarshalText", "trace/trace.go:Msg.MarshalText", "trace/trace.go:Reader.ReadMsg", "hid/hid.go:Decoder.ReadFrame", "hid/hid.go:Encoder.WriteFrame", "hid/report_def.go:ReportDefs.Find", "hid/report_transport.go:rawReportWriter.WriteReport", "packet.go:PacketReader.ReadPacket", "cmd/ipod/main.go:processFrames", "cmd/ipod/main.go:dumpTrace", "cmd/ipod/main.go:logFrame"]}
{"id": "C105", "title": "What the commands say when they begin", "statement": "Before its loop a command takes its steps in a fixed order, up to the first that fails: an argument it needs, then opening what the argument names, then the next argument, and last the file for -w if that is not empty. For each thing opened the log has one line with its path ('device opened' as information, 'trace file opened' and 'writing trace' as warnings); the one that cannot be opened gets a line at error level with its path and the reason, and nothing follows. Standard error gets 'error: ' and that reason, or 'usage error: ' and which path is missing ('device path is missing', 'trace file path is missing'), each with an empty line after it, and nothing if the loop is reached. The reason is what the operating system says, or 'not a char device' for a device path that can be opened but is something else. If Stat fails on the open device the command crashes and says nothing.", "quantifier": "For all commands and arguments, all operating systems (what there is at each path, what is refused with which error and text).", "why_tests_cant": "No test runs the commands; what is said for every combination of missing arguments and failing paths is a statement about all of them.", "anchors": ["cmd/ipod/main.go:main", "cmd/ipod/main.go:openDevice", "cmd/ipod/main.go:openTraceFile", "cmd/ipod/main.go:newTraceFile"]}
{"id": "C106", "title": "One report held in memory", "statement": "A SingleReport returns, at every call, its first byte as the report id, the second as the link control and the rest as the data, never an error; it panics exactly if it has fewer than two bytes. A decoder reading from it returns the payload of the report (cut to what the table allows) as a frame, at every call, if the id is in the table and the link control ends a transfer; an error if the id is not in the table; and otherwise the call never returns. It then holds nothing, or the payload, or - if the report continues a transfer and has a payload - more than any bound.", "quantifier": "For all byte strings, report tables, buffers, growth policies and numbers of rounds.", "why_tests_cant": "That a call never returns, and that memory grows without bound, cannot be observed in a finite test; the project only has a benchmark with a SingleReport, whose report id is not in the table it uses.", "anchors": ["hid/report_transport.go:SingleReport.ReadReport", "hid/hid.go:Decoder.ReadFrame"]}
{"id": "C107", "title": "Whatever a caller puts into a payload is encoded or refused", "statement": "For every value a caller puts into Command.Payload or into an interface field of a message (nil, a nil pointer, a message itself in place of a pointer to it, bytes, a struct of any type, a value with its own MarshalBinary), MarshalCmd returns the packet with the bytes of the whole value or an error; it does not panic. Respond hands on every pointer to a registered message, with its id and the transaction of the request.", "quantifier": "For all payloads and contents of interface fields of these kinds, all ids, transactions, modes and both groups of Go releases.", "why_tests_cant": "No test of the project gives MarshalCmd a nil or foreign info; a test can only try some of the types and values a caller may put into an interface field.", "anchors": ["cmd.go:CommandSerde.MarshalCmd", "cmd.go:Respond", "lingo.go:LookupID", "lingo-extremote/extremote.go:ReturnIndexedPlayingTrackInfo.MarshalBinary", "lingo-dispremote/dispremote.go:RetiPodStateInfo.MarshalBinary", "lingo-dispremote/dispremote.go:RetIndexedPlayingTrackInfo.MarshalBinary", "lingo-general/general.go:FIDTokenValue.MarshalBinary", "lingo-general/general.go:FIDTokenValueACK.MarshalBinary"]}
{"id": "C108", "title": "Who may keep and change which bytes", "statement": "Slices that cross the library's API can be kept and used freely. What Bytes returned, a payload from ReadPacket, a report read and a report handed to a report writer show the same bytes however the library is used later; and whatever a caller does with such a slice (look, cut, write it as a packet, store into it, append to it) has no effect on the packets still to be read or already written.", "quantifier": "For all sequences of WritePacket, Bytes, cutting and allocating, all payloads also when they are parts of the writer's own bytes, all frames, reads, report tables, failures of the writer and growth of arrays.", "why_tests_cant": "Whether two slices share an array is invisible in their values; it depends on capacities chosen by the runtime and on the order of calls. A test sees one order with one capacity.", "anchors": ["packet.go:PacketWriter.WritePacket", "packet.go:PacketWriter.Bytes", "packet.go:PacketReader.ReadPacket", "hid/report_transport.go:rawReportReader.ReadReport", "hid/hid.go:Encoder.WriteFrame", "hid/hid.go:Decoder.ReadFrame"]}
{"id": "C109", "title": "Accessories served side by side", "statement": "When one process serves several accessories at the same time, each is served as if it were alone: it is written the same frames, the certificate its device is handed is the one it sent, the requests the iPod makes to it carry the numbers they would carry, and the process crashes only if an accessory would crash it on its own.", "quantifier": "For all numbers of accessories, all reads (also failing ones) of each, all clocks, all orders in which reads, commands and answers of the accessories follow each other, and all devices (for the frames: devices whose answers do not depend on certificates).", "why_tests_cant": "The buffer for certificates and the transaction counter are package variables. Tests run one session at a time; the number of interleavings grows exponentially with the number of commands.", "anchors": ["lingo-general/handler.go:HandleGeneral", "cmd.go:Send", "cmd.go:TrxReset", "cmd.go:TrxNext", "cmd/ipod/main.go:processFrames"]}
{"id": "C110", "title": "The emulated iPod as a whole, byte for byte", "statement": "What the server of cmd/ipod writes in a session is determined by the bytes it reads, the clock and four things it remembers (transactions on or off, the user interface mode, the number of its last own request, how often it looked at the clock): for every sequence of frames and read errors, well formed or not, it writes exactly the bytes a specified iPod writes - for each packet, in order, the specified answers with the specified numbers, transactions, bodies and framing - and it crashes exactly on the sessions the specified iPod dies in. Everything written is nothing at all, a proper frame around one packet, or an acknowledgement of identification tokens of exactly 256 bytes. Certificates, tokens and everything else it was sent leave no trace in later answers.", "quantifier": "For all sequences of frames and read errors of any content and length, all clocks, all states of the server at the beginning.", "why_tests_cant": "It quantifies over all packets of all lengths in all sequences; tests compare a few commands, each with the server freshly started, and never the bytes of whole sessions with malformed packets in between.", "anchors": ["cmd/ipod/main.go:processFrames", "cmd/ipod/main.go:handlePacket", "cmd.go:UnmarshalCmd", "cmd.go:MarshalCmd", "lingo.go:Lookup", "packet.go:WritePacket", "lingo-general/handler.go:HandleGeneral", "lingo-dispremote/handler.go:HandleDispRemote", "lingo-extremote/handler.go:HandleExtRemote", "lingo-audio/handler.go:HandleAudio"]}
{"id": "C111", "title": "ipod serve as a function of what is read from the device file", "statement": "Everything ipod serve does at its device file - every report it writes, its id, link control, payload and padding, in which order, between which reads, also when the device refuses reports - is determined by the bytes read: it is what a specified gadget does which takes the reports apart, collects frames, searches them for packets, answers as the emulated iPod and cuts the answers into reports. Malformed reports, unknown ids, short reads, read errors, aborted and interleaved transfers and garbage in frames included. The server stops exactly at an end of file; it crashes on the packets the iPod dies of, and apart from those only on a frame in which a packet announces more bytes than the frame has. The trace written with -w has exactly one line for every read that gave bytes and every report the device took.", "quantifier": "For all sequences of results of Read, both report tables, all patterns of failing writes, all clocks, all states of the server, all ways of growing buffers.", "why_tests_cant": "It quantifies over all sequences of reads of all contents with any errors in between; tests feed a handful of well-formed reports, and none runs the whole program.", "anchors": ["cmd/ipod/main.go:processFrames", "hid/hid.go:ReadFrame", "hid/hid.go:WriteFrame", "hid/report_def.go:Pick", "hid/report_def.go:Find", "hid/report_transport.go:ReadReport", "hid/report_transport.go:WriteReport", "packet.go:ReadPacket", "packet.go:WritePacket", "trace/trace.go:NewTracer"]}
{"id": "C112", "title": "What an accessory can find out, and what it can bring about", "statement": "Two iPods answer everything alike, whatever is sent from now on and in whatever frames, exactly if they agree in the transaction mode, the UI mode, the number of the last request of the iPod (mod 65536) and the time. So an accessory can find out each of these, and nothing else: not the tokens and not the certificate of whoever was connected before. Every combination of transaction mode, number and looks at the clock can be brought about, with exactly two UI modes. Whatever went on before, three packets (start the identification, leave the extended interface, request to identify) bring the iPod into a state in which it answers everything as if just switched on.", "quantifier": "For all pairs of states of the server, all sequences of frames and read errors, all clocks.", "why_tests_cant": "Indistinguishability quantifies over all future inputs and all pairs of states; reachability over all sessions. A test compares two runs.", "anchors": ["cmd/ipod/main.go:processFrames", "cmd/ipod/main.go:handlePacket", "cmd/ipod/general.go:DevGeneral", "lingo-general/handler.go:HandleGeneral", "cmd.go:TrxNext", "cmd.go:handleCmdID"]}
{"id": "C113", "title": "ipod replay as a function of the text of the trace file", "statement": "Everything ipod replay does is determined by the text of the trace file: the lines to the iPod (sign, one ignored character, hex digits, spaces ignored, anything after the digits ignored), cut to 1024 bytes, are handed as reads to the specified gadget of C111, lines from the iPod and empty ones are left out, nonsense is a read error that only drops a frame begun; the frames answered are the gadget's. A file that can be read to its end is gone through and the command ends with status 0 unless the iPod dies of a packet (status 2) or a frame announces more bytes than it has; a file with a line of 64 KiB or a failing read keeps the command running for good without another answer. ipod send hands to the device exactly the reports of the same messages up to the first nonsense or message of less than three bytes. ipod serve does the same with what is read from the device.", "quantifier": "For all bytes in the file, all ways of reading to end, both report tables, all numbers of reads, all clocks, all states of the server, all ways of growing buffers.", "why_tests_cant": "It quantifies over all texts of a file, whatever is wrong with them, and all frames in them; no test replays a file.", "anchors": ["cmd/ipod/main.go:processFrames", "cmd/ipod/main.go:openTraceFile", "trace/trace.go:ReadMsg", "trace/trace.go:UnmarshalText", "trace/trace.go:NewTraceDirReader", "hid/hid.go:ReadFrame", "packet.go:ReadPacket", "cmd.go:UnmarshalCmd"]}
{"id": "C114", "title": "ipod view as a function of the text of the trace file", "statement": "Everything ipod view shows is determined by the text of the trace file: a file with a line that is no message, a line of 64 KiB or a failing read is refused with status 1; otherwise the frames shown, their direction and their order are those a specified function of the messages gives, each with one command for every packet in it, of the number, the transaction and the content (read as the message of that number, if it can be) of that packet, and the command ends with status 0; it crashes with status 2 if a packet cannot be decoded after those before it, and apart from that only at a frame in which a packet announces more bytes than the frame has. The frames shown of a direction are those its own messages make up, one after another; none is missing if the last message of either direction ends a frame.", "quantifier": "For all bytes in the file, all ways of reading to end, both report tables, all numbers of rounds beyond the number of messages, all ways of growing buffers.", "why_tests_cant": "It quantifies over all texts of a file and all interleavings of the two directions in it; no test views a file.", "anchors": ["cmd/ipod/main.go:dumpTrace", "trace/trace.go:ReadMsg", "trace/trace.go:DequeueDir", "hid/hid.go:ReadFrame", "packet.go:ReadPacket", "cmd.go:UnmarshalCmd"]}
{"id": "C115", "title": "The handlers with any device and any writer", "statement": "HandleGeneral, HandleDispRemote, HandleExtRemote, HandleAudio and Start are exported: a caller brings a device and a writer whose methods may do anything, answer differently each time, fail, panic or never return. For every request, the sequences of calls (of the device, the writer, the clock, the transaction counter and the certificate buffer) with their arguments and results that HandleGeneral can go through are exactly those a specification lists request by request: what is asked of the device before what is told, what is written in between, and how the results go into what is written. What the writer and SetToken return makes no difference. A call that does not come back is the last, and what happened before is the beginning of such a sequence. HandleExtRemote and HandleAudio only write, HandleDispRemote only writes and asks for the time (exactly if the request does); HandleDispRemote returns the error 'unknown info type' exactly for kinds of information the lingo does not have, the others return no error. For a device whose questions have no effect the outcome is that of the handlers as the other properties have them.", "quantifier": "For all requests with all contents, all behaviours of the device, the writer and the clock (any function of everything that happened before, including not returning), and all sequences of calls.", "why_tests_cant": "It quantifies over all implementations of two interfaces, including those that panic or fail at any point; the tests bring one device and one writer that never fail.", "anchors": ["lingo-general/handler.go:HandleGeneral", "lingo-dispremote/handler.go:HandleDispRemote", "lingo-extremote/handler.go:HandleExtRemote", "lingo-audio/handler.go:HandleAudio", "lingo-audio/handler.go:Start", "cmd.go:Respond", "cmd.go:Send", "cmd/ipod/main.go:handlePacket"]}
{"id": "C116", "title": "What ipod serve does and says, in order, also when the device refuses reports or the program crashes", "statement": "For every sequence of results of the device's reads and every behaviour of its writes, all that can be watched of ipod serve, its operations on the device and the lines of its log, in one sequence, follows a specification: after each read that does not complete a frame nothing, or one line with the reason; after one that does, the frame, for each packet in it the packet or the reason it is not one, then the command or the reason it is not one, then what the handlers say, then for each answer in order its command, its packet, the reports handed to the device up to and including the first it refuses, and then the frame, with the device's error if it refused one. What is done at the device is what is done without the log, and what is done and said up to a read does not depend on what is read later. At any time there are as many lines about a frame not sent as reports the device refused. The line that says the end was reached is there exactly if the loop ended because of it, and is the last. If the program crashes, what came after the last read are only lines: the first says a frame came in, the last is about a frame, a packet or a command that came in; nothing of that frame was answered.", "quantifier": "For all devices (implementations of the handlers' interface) and clocks, all results of all reads (reports of any size, with any error), all behaviours of the device's writes (each report taken, or refused with any error), legacy table or not, all growth policies of the buffer, from any state of the server, runs of any length.", "why_tests_cant": "The claim is about every interleaving of reads, refused writes and log lines, for runs of any length, including those that end in a panic; the program has no test of the serve loop at all.", "anchors": ["cmd/ipod/main.go:processFrames", "cmd/ipod/main.go:logFrame", "cmd/ipod/main.go:logPacket", "cmd/ipod/main.go:logCmd", "cmd/ipod/general.go", "hid/hid.go:WriteFrame", "hid/hid.go:ReadFrame", "packet.go:ReadPacket", "cmd.go:UnmarshalCmd"]}
{"id": "C117", "title": "Reports that arrive in another order than they were sent", "statement": "Of reports belonging to frames that were sent, arriving in any order, any number of times, from any number of frames mixed together, ReadFrame makes exactly these frames: a report marked as the only one of its frame is a frame by itself; otherwise the data since the last first report (or since the last frame delivered) up to each last report. When every frame's reports arrive before the next frame's, in some order, the frames are delivered as sent exactly if of each frame the first report comes first, the last comes last, and the data of those in between, in the order they arrive, is the data in the order sent. If only the reports in between change places, the packet read from the frame is accepted: its payload has the same bytes in another order, and is the one sent only if the data is the same either way, so neither transport nor checksum notices.", "quantifier": "For all report tables with distinct ids and room for data, all frames and packets, all lists of their reports in every order and number, all numbers of frames, all growth policies and states of the buffer, any number of calls.", "why_tests_cant": "The claim is about all permutations and mixtures of arbitrarily long sequences of reports; the tests read reports only in the order they are written.", "anchors": ["hid/hid.go:ReadFrame", "hid/hid.go:WriteFrame", "packet.go:ReadPacket", "crc.go:Checksum"]}
{"id": "C118", "title": "How many reports a frame takes", "statement": "WriteFrame carries every frame in as few reports as full reports of the table can carry it, exactly if the table's last device-to-host report is one of its largest. Then a frame of n bytes takes n divided by the payload of that report, rounded up. Both shipped tables are of this kind: n/62 reports (default) and n/766 (legacy), rounded up. The number of bytes is not always the least: with either table there are frames that as many reports could carry in fewer bytes.", "quantifier": "For all report tables with distinct ids and room for data, all non-empty frames of any length, all other ways of carrying the frame in reports of the table.", "why_tests_cant": "Optimality compares the encoder's choice with every other sequence of reports, for every table and every length of frame; the tests compare a few short frames with expected reports.", "anchors": ["hid/hid.go:WriteFrame", "hid/report_def.go:Pick", "hid/report_def.go:DefaultReportDefs", "hid/report_def.go:LegacyReportDefs"]}
{"id": "C119", "title": "Frames written by several goroutines", "statement": "Any number of goroutines call WriteFrame of one transport, each with a sequence of frames. None panics, and the reports reach the ReportWriter in exactly the mixtures that keep each goroutine's order. Whatever the order, ReadFrame on the other side gives as many frames as were written, without an error. They are the frames that were written exactly if the reports of each frame were handed over with no other report between them, and then they come in that order, those of each goroutine in its order. Otherwise there are frames of parts: even a packet with a right checksum that no goroutine wrote.", "quantifier": "For all numbers of goroutines, all sequences of non-empty frames of any length, all schedules, all report tables with distinct ids and room for data, all growth policies and states of the receiving buffer.", "why_tests_cant": "The claim ranges over all schedules of any number of goroutines; the tests write from one.", "anchors": ["hid/hid.go:WriteFrame", "hid/hid.go:ReadFrame", "hid/hid.go:NewTransport", "hid/report_def.go:Pick"]}
{"id": "C120", "title": "Packets in frames that lost reports", "statement": "Packets are sent, one per frame, and some of their reports are lost. The server does what it would if only the packets that arrived whole had been sent: the same replies, the same state. (Full claim: whichever reports are lost and whatever is in the packets, and it does not panic.)", "quantifier": "For all sessions of packets of any length, all sets of lost reports, all report tables and all ways to cut the frames into their reports with four bytes or more in the first and less padding at the end than data in any later report (so the encoder does with both shipped tables), all growth policies, receive buffers, devices and states of the server.", "why_tests_cant": "The claim ranges over all packets, all losses and all memory behind the frame; the tests lose no report.", "anchors": ["hid/hid.go:ReadFrame", "hid/hid.go:WriteFrame", "packet.go:ReadPacket", "cmd/ipod/main.go:processFrames"]}
{"id": "C121", "title": "Logs of older versions made into traces", "statement": "convert_old_log.sh turns the log of an older version into a trace that is loaded as the frames the log tells of: each line with the word Input or Output and the bytes of a frame in brackets becomes an entry, in order, the other lines do not count. (Full claim: whether or not there is a space after the opening bracket.)", "quantifier": "For all logs with any number of lines shorter than 65536 bytes, all texts before, between and after the word and the brackets, all frames, digits with any spaces between them.", "why_tests_cant": "The claim ranges over all logs and all ways the expressions can match; the script has no test.", "anchors": ["cmd/ipod/scripts/convert_old_log.sh", "trace/trace.go:UnmarshalText", "trace/trace.go:ReadMsg", "cmd/ipod/main.go:dumpTrace"]}
{"id": "C122", "title": "Bytes damaged in transit", "statement": "A packet of which bytes were changed on the way, noticeably for a one-byte sum, is not read: the server does with all frames exactly what it does with those whose packets arrived unharmed, and it does not crash. (Full claim: whichever bytes are changed, the length and start bytes included.)", "quantifier": "For all devices, server states, sessions of any number of frames cut into reports of any good table, all packets, all changed bytes (any number), all memory behind the frames.", "why_tests_cant": "The claim ranges over all packets, all damage and all later traffic; the tests have one packet with a bad checksum.", "anchors": ["packet.go:ReadPacket", "hid/hid.go:ReadFrame", "cmd/ipod/main.go:processFrames"]}
{"id": "C123", "title": "A disturbed connection recovers", "statement": "Whatever the server's reads returned so far (rubbish, unknown reports, frames without their beginning or their end, errors of the device), as long as it neither crashed nor met the end of the connection: frames that then come whole are served exactly as on a new connection in the state the server is in, and what is written for them follows what was written before. In particular an accessory that now identifies itself gets exactly the answers to its handshake.", "quantifier": "For all devices, server states, sequences of read results, good report tables, growth policies, and any number of frames of any content that come whole.", "why_tests_cant": "The tests decode well-formed reports from a fresh decoder; no test has anything precede a frame.", "anchors": ["hid/hid.go:ReadFrame", "cmd/ipod/main.go:processFrames", "packet.go:ReadPacket"]}
{"id": "C124", "title": "Errors of goroutines that share a transport", "statement": "Goroutines that write frames to one transport whose report writer may refuse any report get the errors of their own reports and no others: a call of WriteFrame returns nil just if all reports of its frame were handed over and taken, and otherwise hands over the reports up to the first refused one and returns that error. Whatever the others do, each goroutine goes through its frames as if alone; and every order of the reports that keeps this can happen. Given turns enough, in any order, all calls end.", "quantifier": "For all report tables (the form of the calls: tables with a report for the direction and room for data), any number of goroutines with any lists of frames, every schedule and every choice of refused reports and errors.", "why_tests_cant": "The tests use one goroutine and a writer that never fails; schedules and failures together cannot be enumerated.", "anchors": ["hid/hid.go:WriteFrame"]}
{"id": "C125", "title": "A frame arrives just if WriteFrame returned nil", "statement": "Goroutines call WriteFrame of one transport, one call at a time (as with a lock held during each call), and the report writer may refuse any reports. If refused reports do not arrive and all others do, ReadFrame on the other side gives the frames of the calls that returned nil, padded with zeros, in the order of the calls, and nothing else: nothing of a frame that was given up, and no frame spoilt by one that was. So a caller who repeats each frame until WriteFrame returns nil has each delivered once, in order. The same holds if goroutines with a lock of their own read on the other side.", "quantifier": "For all usable report tables, any number of goroutines with any lists of frames, every schedule in which calls exclude each other, every choice of refused reports and errors, and any contents of the receiver's buffer before.", "why_tests_cant": "No test has a writer that fails, and the parts of given-up frames in between can be anything.", "anchors": ["hid/hid.go:WriteFrame", "hid/hid.go:ReadFrame"]}
{"id": "C126", "title": "Goroutines that read frames from one transport", "statement": "Frames have been sent, and any number of goroutines call ReadFrame of one transport again and again, taking turns in any order, where reading a report and adding it to the buffer is one turn. The frames are read one after the other; each is returned to exactly one goroutine, the one that reads its last report, and no call returns anything else, except io.EOF after the last frame; nobody panics. What is returned is the data of those reports of the frame that were read since the last call of ReadFrame began, whoever made it: the frame is whole (followed by zeros) just if no call began between its first report and its last, and for every frame of several reports there is an order of turns in which its beginning is missing. Frames of one report each, and all frames if the goroutines hold a lock during each call, are returned whole, each once and in order. With the lock the calls of all goroutines together return, in order, what those of one goroutine alone would, whatever comes from the device (reads that fail, stray and unknown reports), and even if every statement of ReadFrame is a turn of its own. Without the lock and with such turns, not even frames of one report are safe: of any two, both may be returned glued together, twice. Whatever a schedule of such longer turns leads to, some schedule of statements leads to as well. Even then, with a usable table nobody panics, and a frame that is returned is data of reports that came, put together from no report more than once. After two turns per report and one more per goroutine no frame is left.", "quantifier": "For all usable report tables, all lists of non-empty frames, any number of goroutines and every schedule, any way the buffer grows.", "why_tests_cant": "The result depends on the order in which goroutines run, which a test does not control.", "anchors": ["hid/hid.go:ReadFrame", "hid/hid.go:Decoder"]}
{"id": "C127", "title": "Several transports that read from one device", "statement": "Any number of transports, each with its own decoder, read from one device, as several programs do that have opened the same device file. Every report and every error goes to exactly one of them, in the order in which they come, and the calls of ReadFrame of each have returned just what they would if what it has read had come from a device of its own. Which one reads which report is left to chance: every distribution happens in some order of turns. A frame of a single report is returned once, whole, by the transport that read it. Of longer frames a transport returns those of which it has read all reports, and nothing else, just if it has read no last report of a frame without all its other reports; otherwise it returns mutilated frames without noticing.", "quantifier": "For all report tables, any results of the reads, any number of transports and every schedule; whole frames: all usable report tables, all lists of non-empty frames and every distribution of their reports.", "why_tests_cant": "The result depends on which program is first to read, which a test does not control.", "anchors": ["hid/hid.go:ReadFrame", "hid/hid.go:Decoder", "hid/hid.go:NewDecoder"]}
