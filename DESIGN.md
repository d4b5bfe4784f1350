# Formal model of oandrew/ipod in Lean 4

## Layout

| Path | Content |
|---|---|
| `lean/Verif/Go/*` | the small part of the Go runtime and standard library the code uses: panics, slices with spare capacity, `encoding/binary` on structs, `bytes.Buffer` growth, number formatting, text scanning |
| `lean/Verif/Model/*` | the model of the repository, function by function, each definition citing file and lines |
| `lean/Verif/Spec/*` | small independent specifications used in theorem statements (wire formats, FIFO, sessions, reply tables) |
| `lean/Verif/Lemmas/*` | helper lemmas |
| `lean/Verif/Props/*` | the property theorems `Props.Cxx_...`, each with a non-trivial `example` meeting its hypotheses |
| `properties.jsonl`, `MANIFEST.json` | the properties, and which theorems prove them |
| `seeded/LOG.jsonl` | the mutation tests |

## Trusted base

* Lean 4.33's kernel, and its three standard axioms `propext`, `Classical.choice`, `Quot.sound` (table at the end). No
  axiom is added; there is no `sorry`, `native_decide` or `bv_decide`; finite tables are evaluated by the kernel
  (`decide +kernel`), and always the whole table.
* That the model says what the Go code says. It was written by reading `/repo`; nothing was compiled or run. As a check of the
  model (not as a claim) the repository's own unit tests for packets, commands, reports and traces are evaluated on it in
  `Props/RepoTests.lean`; all agree.
* That the specifications (`Spec/*`) say what the English statements say.
* The assumptions on Go and its library listed below.

## Modelling decisions

* Bytes are `UInt8`; byte strings `List UInt8`. Machine integers are Lean's fixed-width `UInt16/32/64`, `Int16/32`, so
  wrap-around is the real one. `int` is unbounded where its range cannot be reached (lengths, report sizes).
* A Go slice that can be re-sliced beyond its length (`data[:pktLen]` in `parsePacket`) is modelled with its **spare
  capacity and its stale content** (`Go.Slice`), because the behaviour of the code depends on it.
* A panic is an explicit outcome (`Go.Out.panic`), errors are values, `nil` is an explicit case. An unrecovered panic ends
  the program: `Out` stops there.
* `encoding/binary` is modelled generically over struct *schemas* (list of field types); every message struct of the five
  lingos is a schema, so `binary.Size/Read/Write` are one function each, as in Go. Structs with a slice/interface/string
  field have no binary size, exactly as `binary.Size` returns -1.
* The registry (`storeMapping`, `LookupID`, `Lookup`) is the fold over the declarations in `Model/Types.lean`; reflection
  is replaced by this table of types (name, id tag, transaction marker, fields, codec).
* Readers and writers (`io.Reader`, `ReportWriter`, ...) are sequences of results: every theorem quantifies over all of
  them. A device is an arbitrary record of functions (`Device`) plus the concrete `DevGeneral` of `cmd/ipod`.
  `Model/Effects.lean` has the handlers once more, for devices and writers whose methods may do anything or not return (C115).
* Goroutines: atomic steps interleaved arbitrarily (transaction counter, C20; the two goroutines of `send`, C77, C98; writers and readers of one transport, C119, C124-C127). The
  server itself is sequential. A panic in a goroutine ends the process; so does the runtime when all of them wait for ever.
* Shared memory (`Model/Alias.lean`): decoded values carry, for each string or byte slice, whether it was copied or points
  into the decoder's buffer, and the buffer is overwritten frame by frame.
* `time.Now()` is a parameter (`Clock`), as is the growth of a `bytes.Buffer` (`Growth`), the iteration order of maps (an
  arbitrary permutation) and the sorting algorithm (any that sorts).

## Assumptions on Go

* `encoding/binary`: `binary.Size(nil)` is -1, as in current releases; older ones, the ones the project names (go.mod,
  .travis.yml) among them, panic there, see Model/Toolchain.lean and C97. For the rest the releases agree: `Write` of a fixed-size value is the concatenation of
  its fields big-endian, blank fields as zeros; `Read` is `io.ReadFull` of `Size` bytes then decoding field by field;
  `bool` decodes as `!= 0`; a value without fixed size makes both fail without touching the stream.
* `bytes.Buffer`: `Reset` keeps the array, a write that fits goes in place, otherwise a new array of unspecified larger
  capacity; first small allocation 64 bytes.
* `bufio.Scanner` with `ScanLines`: tokens of at most 64 KiB (`ErrTooLong` otherwise, sticky), `\r` dropped.
* `fmt` verbs `%d %x %#02x %v %s %-44s`, `strconv.ParseInt/ParseUint`, `strings.Fields`, `hex.Decode`,
  `container/list`, `sort.Slice`/`sort.Strings`: modelled by hand for the arguments used.
* File writes of `os.File` opened without `O_TRUNC` overwrite from offset 0 (C45).
* `atomic.AddUint32` is atomic.

## What is modelled, file by file

| File | Modelled | Not modelled |
|---|---|---|
| `packet.go`, `crc.go`, `util.go`, `transport.go` | all | – |
| `cmd.go` | all (`Transaction`, `CommandSerde`, `BuildCommand`, `Respond`, `Send`, `CmdBuffer`) | – |
| `lingo.go` | ids and their codec, `RegisterLingos`, `parseIdTag` with `StructTag.Get` and `ParseUint`, `LookupID`, `Lookup`, `DumpLingos`, texts | the reflection that yields type, tag and size: the table of types stands for it; escapes in tags (a parameter) |
| `lingo-general`, `-simpleremote`, `-dispremote`, `-extremote`, `-audio` | every registered message with its layout and codec, every handler, all `String` methods | payloads and infos of kinds other than structs, pointers to them, byte slices and nil (Model/Any.lean) |
| `hid/*` | encoder and decoder (also called by several goroutines, Model/Writers, Model/Callers, Model/Readers, Model/Racers, Model/Listeners), report tables, raw report reader and writer, `SingleReport` | – |
| `trace/trace.go` | text codec, reader, writer, tracer, direction readers, queue | – |
| `cmd/ipod/scripts/convert_old_log.sh` | all of it (Model/OldLog.lean), grep and perl as their manuals have it | – |
| `cmd/ipod/main.go` | `processFrames`, `handlePacket`, the actions of all commands (`lingos`, `serve`, `replay`, `view` with `dumpTrace`, `send`), `openDevice`, `openTraceFile`, `newTraceFile`, exit status | flag parsing and usage texts, one-second pauses, `spew` dumps in debug mode |
| `cmd/ipod/general.go` | every method of `DevGeneral`, with what it logs (`Model/LogDevice.lean`) | the pkcs7 parser and the spew dump of tokens are parameters |
| `cmd/ipod/formatter.go`, `log.go` | the text formatter with and without colours, the lines logged by server and viewer (`Model/Log.lean`, `Model/LogView.lean`); texts of the errors of the command codec (`Model/ErrText.lean`), of trace files, transport and packets, and the log with them (`Model/LogText.lean`), in order with the operations on the device (`Model/Voice.lean`), of starting the commands (`Model/CliText.lean`) | texts of the operating system's errors, the help, detection of a terminal, debug dumps |


## Per property

Statements are in `properties.jsonl`, the theorems and remarks in `MANIFEST.json`. A property is *partial* when the code
violates it as stated: then the theorem with the suffix `_partial` is the part that holds (an exact `iff` where we have
it), and a theorem with `fails` (or a telling name) proves the negation on a witness.

| Id | Status | What is modelled | How proved / what is missing |
|---|---|---|---|
| C01 Packet write/read round trip | partial | `writePacket`, `readPacket` on `Slice` | header arithmetic; iff over all sizes. Proved for every size 1..65535 except 256; at 256 the code writes header byte 0 and the payload never comes back (C01_fails_at_256). |
| C02 Packet streams are delivered in order | proved | same, the read loop | induction over the list of packets. |
| C03 ReadPacket only returns genuine packets | proved | `readPacket` | case analysis of the parser against the wire specification `Spec.Wire`. |
| C04 Single-byte corruption is detected | proved | same | sums mod 256 differ when one summand differs. |
| C05 The packet read loop always terminates | proved | same, loop as iterated calls | length measure. |
| C06 ReadPacket never panics | partial | same, with spare capacity | case analysis. False of the code: a frame announcing more bytes than it holds can panic. Exact characterisation C06_panics_iff, witness C06_fails, partial for frames whose announced length fits. |
| C07 WritePacket only appends | proved | `writePacket` | induction over calls. |
| C08 Packet wire format | partial | `writePacket` | equality with the independent format `Spec.wirePacket`. Proved for every size 1..65535 except 256, negation at 256 (C08_fails_at_256); C08_exact_iff says both at once. |
| C09 Checksum laws | proved | `checksum`, `Crc8` | fold induction, permutations. |
| C10 Command id packing | proved | ids as `UInt32` shifts | bit lemmas. |
| C11 Command id wire round trip | proved | id codec | arithmetic; whole registry evaluated by the kernel. |
| C12 Registry consistency | proved | registry as maps built by folds | induction over registrations. |
| C13 Lookup picks the type by size | proved | `lookup` on an arbitrary registry | list search lemma. |
| C14 Command round trip, fixed-size messages | partial | `marshalCmd`/`unmarshalCmd` on the real registry | generic struct round trip + lookup analysis of every registered type. Proved for every fixed-size message, transaction and mode except ACKDataDropped sent without transaction, which is received as ACKPending whatever it says (C14_dropped_ack_not_roundtrip, C14_dropped_ack_always); exactly: C14_fixed_roundtrip_iff. |
| C15 Command round trip, variable-size messages | partial | same, custom codecs | per-codec round trips. Proved for all messages with a codec in both directions except the text infos of RetIndexedPlayingTrackInfo, which are sent without text and refused (C15_track_text_not_roundtrip); exactly: C15_var_roundtrip_iff. |
| C16 Transaction mode depends only on the last mode-switching command | proved | serializer mode | induction over histories of marshal/unmarshal calls. |
| C17 Where the transaction goes | proved | `marshalCmd` | equality with the layout in `Spec.Layout`. |
| C18 UnmarshalCmd never panics | partial | `unmarshalCmd` with panics | case analysis over all codecs. False of the code. Exact characterisation of the panicking packets (C18_unmarshal_panics_iff_partial), witnesses, and absence of panics on all other commands. |
| C19 Failed decodes deliver no half-filled payload | proved | `unmarshalCmd` | case analysis: command complete, or unknown payload with all bytes, or error without payload. |
| C20 Outgoing transaction numbers | proved | transaction counter, interleavings = lists of thread ids | induction, modular arithmetic. |
| C21 Transaction arithmetic | proved | `Transaction` with identity | arithmetic mod 65536. |
| C22 Fixed-size struct encoding | proved | `Go.Binary` on schemas | structural induction on schemas. |
| C23 Button state masks | proved | `ButtonStates`, `ContextButtonStatus` codecs | bit-level arithmetic. |
| C24 FID token list round trip | proved | token list codec | induction over tokens. |
| C25 Every token is acknowledged | partial | token acknowledgement and its encoding through the server | induction over tokens. Proved while every token is of a known kind: one acknowledgement per token, in order, with its kind and status. With one token of an unknown kind the whole answer cannot be encoded and nothing is sent (C25_unknown_token_lost). |
| C26 List-valued codecs round trip | proved | list codecs | induction. |
| C27 Display-remote info records round trip | partial | info record codecs | case analysis. State infos: all. Track infos: capabilities and artwork count; the text infos are lost (C27_track_text_lost). |
| C28 Strings on the wire | proved | string codecs | byte-list lemmas. |
| C29 HID frame round trip | proved | HID encoder and decoder | induction on bytes left. |
| C30 Link-control sequence | proved | encoder | induction on reports, specification of link control by position. |
| C31 Reports respect the descriptor | partial | encoder, report tables | whole-table evaluation lifted over all sizes. Descriptor part and the legacy table proved. C31_any_table: ids and sizes for tables of any kind (id bytes are ids modulo 256). The default table is not ordered by size: best choice proved while at least ten bytes are left, negation for frames of at most nine bytes (C31_default_not_best). |
| C32 Decoder recovers from aborted frames | proved | decoder | induction over report lists. |
| C33 A frame never mixes transfers | proved | decoder | iff with an independent relation of transfers. |
| C34 Write errors stop the frame | proved | encoder with failing writer | induction. |
| C35 Raw report round trip | proved | raw reader and writer | case analysis. |
| C36 WriteFrame terminates | proved | encoder loop with fuel | fuel monotonicity, measure. |
| C37 End-to-end transport | partial | composition packet + HID + raw reports | composition of C01, C29, C35. Proved for all payload sizes 1..65535 except 256, which the packet writer spoils wherever in a frame (C01_fails_at_256_within); everything arrives just if no payload has 256 bytes (C37_end_to_end_iff). |
| C38 Trace message text round trip | proved | trace text codec | round trip against an independent text form. |
| C39 Trace file round trip | proved | writer, reader with scanner | induction over lines. |
| C40 Malformed trace lines are rejected | partial | `Msg.UnmarshalText` | iff with an independent grammar. False of the code: anything is accepted in the second column and behind the digits (C40_accepts_malformed). The exact set of accepted lines is proved (C40_accepted_iff_partial). |
| C41 Tracer is transparent and complete | proved | tracer | induction over calls. |
| C42 Direction readers | proved | direction reader | induction over messages. |
| C43 Trace queue is a two-way FIFO | proved | queue as three lists with element identity | refinement to two FIFOs. |
| C44 Replaying a recorded session reproduces it | partial | recorded session, replay | simulation of the two runs (`Props.Alike`), read by read; reads that are not recorded leave no trace unless they cut a frame that is then continued. False of the code: a failing or empty read in the middle of a frame ends that frame live and is not recorded (C44_fails). Proved for every session in which such a read comes between frames or in a frame of which nothing more follows (C44_replay_unnoticed_partial), panics included; in general the replay is the session without the reads that were not recorded (C44_replays_recorded). |
| C45 A new trace contains only this session | partial | overwriting write to an existing file | list arithmetic, iff. False of the code when the old file is longer (C45_old_trace_remains). Proved exactly when it holds: iff the old content is no longer than the new trace. |
| C46 Responses carry the request's transaction | proved | handlers on an arbitrary device | case analysis over all messages. |
| C47 Acknowledgements name the request | proved | same | case analysis over all messages. |
| C48 Handlers emit valid messages only | proved | same | case analysis over all messages. |
| C49 Remote UI mode follows Enter/Exit | proved | general handler + `DevGeneral` | induction over histories. |
| C50 SetUIMode takes effect | partial | same | case analysis, iff. False of the code: SetUIMode is acknowledged and ignored (C50_fails). Proved exactly when it holds: iff the mode set is the mode already in force. |
| C51 Certificate reassembly | proved | certificate reassembly state | induction over sections. |
| C52 Identification tokens | proved | token storage | induction over histories. |
| C53 Every answered request reaches the wire | partial | server loop | case analysis, iff. False of the code. Exact: a frame's treatment hands an empty frame to the transport iff one of the commands is of the seven unsendable kinds (C53_lost_iff), witness C53_fails; otherwise every response is written. |
| C54 The server survives any input | partial | whole server incl. panics | iff over sessions, induction. False of the code (C54_fails, C54_fails_malformed). Exact characterisation of the sessions that panic (C54_panics_iff), and survival of all others. |
| C55 Responses are sent in the mode of their request | partial | server loop | case analysis. False of the code (C55_fails). All responses of a frame are encoded in the mode its last packet leaves (C55_batch_mode); proved for frames that leave transactions on; exactly those carry the transactions (C55_carried_iff). |
| C56 One frame per response, in order | partial | server loop + packet writer | induction. Exact: a response is on the wire as a packet iff its encoding has not 256 and at most 65535 bytes; the others are spoilt by the packet writer (C01_fails_at_256). |
| C57 Transport errors are survivable | proved | server loop on the HID transport | induction over read results. |
| C58 Trace viewing shows every frame | partial | `dumpTrace` | relation of viewed frames, uniqueness, totality, fuel. False of the code in three ways: an incomplete frame of one direction stops the dump (C58_fails), overrunning packets panic (C58_fails_panic), one bad line and nothing is shown (C58_fails_unreadable). What is shown is characterised exactly (C58_view_partial, C58_viewing_unique, C58_stops); completeness when both directions end with a complete frame, and exactly when it holds (C58_complete_iff: no frame of one direction begins after the unfinished end of the other). |
| C59 Authentication hand-shake | proved | handlers | case analysis. |
| C60 Lingo listing is deterministic | proved | `DumpLingos` with map order = arbitrary permutation, any sorting | uniqueness of sorted lists with distinct keys. |
| C61 Unknown general commands are refused politely | proved | general handler | case analysis. |
| C62 Mask names | proved | mask texts | bit induction. |
| C63 Decoded data does not change afterwards | partial | decoded values with provenance (copy or view into the buffer) | case analysis, simulation. False of the code: EAProtocol strings held by the server change when the next frame is read (C63_fails). Exact: a command can change iff it is an unknown one with a body or carries a nonempty EAProtocol string (C63_stable_iff_partial); what it then shows (C63_overwritten); the frames written are not affected (C63_unnoticed); everything else the server holds is what it received (C63_held_partial). |
| C64 Every request gets the protocol's replies | proved | all handlers | equality with the reply table `Spec.Replies` (names only). |
| C65 Acknowledgement status | proved | handlers | case analysis over all acknowledgements. |
| C66 Replies report the device | proved | handlers on an arbitrary device | case analysis. |
| C67 Meaning of received variable-size messages | proved | all custom decoders | equality with independent decoders of `Spec.Decode`. |
| C68 Resynchronisation inside a frame | proved | packet read loop on dirty frames | relation `Spec` of scans, existence and uniqueness. |
| C69 Answers with fixed content | proved | handlers | equality with the byte table of `Spec.Constants`. |
| C70 Names of values | proved | generated stringers | whole 8/16/32/64-bit domain by case analysis. |
| C71 Texts of ids and transactions | partial | ids and transactions as text | number formatting lemmas. Ids and the plain text of transactions proved. The Go-syntax text of a transaction is the hexadecimal form of the characters of its plain text: C71_trx_go_text_fails, for every transaction. |
| C72 Identity of the emulated iPod | proved | `DevGeneral` through the server | history-independent equality with constants. |
| C73 Settings take effect | partial | `DevGeneral` setters and getters | iff. False of the code: settings are acknowledged and forgotten (C73_fails). Proved exactly when it holds: iff the setting is zero. |
| C74 The server answers while it reads | proved | the server cut at its reads of the device (`Live`) | simulation: the read-by-read run equals the batch run `serve`; induction over the reads. |
| C75 Replaying a trace ends | partial | direction reader of a trace under the server | induction over the file; iff, negation with a witness. False of the code: with a line of 64 KiB or more, or when the file cannot be read to its end, the server asks for ever (C75_fails, C75_runs_for_ever). Proved exactly when it holds (C75_replay_ends_iff_partial). |
| C76 Sending a trace | partial | the loop of `send` | induction over the messages; iff, negation with a witness. False of the code: sending stops at the first report of less than three bytes (C76_fails). What is sent is characterised (C76_sent, C76_recorded_session) and so are the traces sent completely (C76_all_sent_iff_partial). |
| C77 Trace of two goroutines | partial | two goroutines on one tracer, interleaved between the operation and its recording | invariant over all schedules; negation with a witness schedule; for the exact set of orders, a schedule is constructed by induction on what is left to do and to record. Each direction is complete and in order under every schedule (C77_directions_partial, C77_events); the order between the directions can be wrong (C77_fails). Exactly the possible orders: C77_orders_iff. |
| C78 A session over HID reports is a session over packets | partial | server, report encoder and decoder, packet reader and writer | composition of C29, C37, C56 into an equivalence with the packet-level relation `Spec.Conversation`, induction over the frames. Proved for all sessions whose packets have 1..65535 bytes other than 256; packets of 256 bytes or more than 65535 are spoilt by the packet writer (C01_fails_at_256). |
| C79 Wire format of every message | partial | all registered types and the serializer | equality of the whole registry with the independently generated table `Spec.wireTable` (kernel evaluation over all 195 types), then induction over the fields for all bodies and values. Proved for all messages, except ACKDataDropped received without transaction, which the registry takes for ACKPending (C14_dropped_ack_not_roundtrip); exactly: C79_received_iff. |
| C80 Answers of the emulated iPod fit into packets | partial | server, handlers of the emulated iPod, serializer, packet writer | case analysis over all handlers for the lengths of the answers, length of the token acknowledgements by induction; composition with C56 and C78. Exact: an answer arrives iff its encoding has not 256 bytes, which happens for acknowledgements of token lists only (C80_frames_iff_partial); C80_fails is such a list. Sessions without token lists are covered without exception (C80_session). |
| C81 Layout of log lines | proved | the text formatter, with the order of the fields of an entry arbitrary | uniqueness of sorted permutations; texts of numbers by induction; parsing back by uniqueness of cuts. |
| C82 Log of the server | partial | the server with its log; device lines, write errors and error texts are parameters | simulation against the server without log; induction over reads, packets and answers to the independent relation `Spec.RunEvents`; negation with a witness. Proved: one line for every event, in order, and nothing changed by logging (C82_log, C82_same); errors, mode and the lengths of the frames handed to the transport (C82_errors, C82_mode, C82_lengths_partial). False of the code: for an answer that cannot be encoded it logs a frame sent, of length 0, though nothing reaches the accessory (C82_fails). Texts of errors and the device's own lines are parameters. |
| C83 Log of the trace viewer | proved | the viewer with its log | simulation against the viewer of C58 and the relation `Spec.ViewLog`; induction over the frames. |
| C84 What the emulated iPod logs | proved | the log lines of `DevGeneral`; the dump of unknown tokens (spew) and the pkcs7 parser are parameters | invariants over the history of commands (C51, C52) and induction over the tokens; names by case analysis over all kinds. |
| C85 Identification and authentication of an accessory | partial | server, serializer, handlers of General, the audio start, packets and HID reports | composition: one conversation step per packet from the lemmas about the serializer and the handlers, induction over the token packets and over the sections, C78 for the reports. Complete at the level of packets, for all devices (C85_handshake, C85_old_handshake). Over HID reports except for requests or token acknowledgements of 256 bytes, which the packet writer spoils (C01_fails_at_256, C80_fails). |
| C86 Ids from struct tags | proved | parseIdTag, RegisterLingos, StructTag.Get and ParseUint of the standard library, the 195 tags as texts | the loop of ParseUint against a grammar of grouped digits by induction, case distinction on prefixes; tag pairs by induction; the tags of the program by evaluation of the complete tables. Complete for tags made of well-formed pairs without escapes in their values. StructTag.Get and ParseUint of the standard library are modelled; how escapes are read is a parameter. |
| C87 A recorded session | partial | the server on a traced device: all calls of Read and Write in one list (Model/Record.lean), the tracer, the viewer, replay and send | induction over the reads, one call of ReadFrame at a time (C33, C29, C56); the viewing of the resulting messages is constructed and unique (C58_viewing_unique); the server and the viewer decode with the same mode; the answers decode because the handlers never answer with a payload that the serializer misreads. C87_trace goes through the calls of ReadFrame one after another without any condition on the reads; how many reports of an answer are tried and taken are small recursive specifications. The trace is proved for all sessions, with failing reads, failing writes, end of input and panics (C87_trace: of the answers it contains the reports the device took; C87_trace_partial is the reading for sessions where all are taken). Replay: all sessions, whatever the device does with the answers and however the session ends, if no read fails amid a frame that is then continued. Viewer: for those in which moreover no frame received makes the packet loop panic, no answer shown has 256 or more than 65535 bytes, and the device takes no answer in part (C87_view_writes_partial). `send` (complete) stops at the first recorded read of less than three bytes (C76). False of the code otherwise. C87_fails: a read that fails within a frame makes the viewer show a frame the server never got. C87_fails_write: an answer the device does not take is not in the trace. C87_fails_part: after an answer taken in part the viewer may show nothing more. |
| C88 The commands of the program | partial | the actions of the five commands (Model/Cli.lean) over a file system that may refuse anything, with the loops of C44, C58, C76, C87 | case analysis of the openings against the independent relation `Spec.Ready`; composition with C74, C87 and C89 for the sessions; negations with witnesses. Everything about opening, usage, files and status is complete for what the code does. False of the code: `send` without its second argument opens the device before it shows the usage (C88_fails), so that nothing is opened when an argument is missing holds for the other commands only (C88_missing_partial); a failing Stat panics (status 2, in C88_refused). Recording and viewing or replaying under the conditions of C87 (C88_view_partial, C88_replay_partial), viewing also after a serve whose writes failed (C88_view_writes_partial); the trace does not say which table it belongs to (C88_fails_table). Flag parsing, usage texts and pauses are not modelled. |
| C89 Any file read as a trace | proved | the trace reader on arbitrary bytes | the lines of a file and what they tell are relations (`Spec.Lines`, `Spec.Told`), proved total and unique; one call of `ReadMsg` is one step of them, then induction over what is told. Complete. C89_fails: recording over the file of a longer session can leave a file the viewer refuses (a consequence of C45). Which lines are accepted is C40. |
| C90 The bytes of a message | partial | the encoding of all payloads | `Spec.WireForm` as relations between values and bytes; per codec an equivalence with the encoder, lists by induction, then case distinction over all 195 types; negation with witnesses. What is sent is characterised exactly, for all types and values (C90_sent). It is the wire form exactly for the values of C90_correct_iff; false of the code for others (C90_fails): a count or length over 255 wraps, the texts of display-remote track infos are left out instead of refused. |
| C91 A new identification starts afresh | partial | the server with any device whose answers respect a relation, the emulated iPod in particular | a bisimulation: related servers write the same and stay related, handler by handler, then by induction over the reads; the first packet sets mode and counter whatever they were; negation with a witness. What the answers depend on is proved for every device (C91_depends, C91_device). A new identification is served as by a fresh iPod exactly if the UI mode is standard (C91_afresh_iff; C91_afresh_partial for any device). False of the code: StartIDPS does not leave the remote UI mode (C91_fails). |
| C92 Grouping of packets into frames | partial | the server loop, serializer and handlers with any device | decoding and handling are sequential: both distribute over concatenation, because no handler looks at the commands waiting to be sent; answers never switch the mode; induction over the frames; lengths of packets for the converse; negation with two witnesses. State, number of answers and panics never depend on the grouping (C92_state), nor do the bytes if no packet after the first changes the transaction mode (C92_same_partial, C92_steady); exactly when a split matters is C92_split_iff. False of the code otherwise (C92_fails): all answers to a frame are encoded in the mode its last packet leaves. |
| C93 How much is sent and kept | partial | the server loop, serializer and handlers with the emulated device | table of answers and sizes of all message types, at most 50 bytes per packet except token acknowledgements (five bytes per token, each of which took at least one byte); induction over packets and frames; negation by induction over the number of repetitions. Answers per command for any device (C93_answers), bytes sent (C93_frame, C93_session) and growth (C93_kept_frame, C93_kept_session). The fixed bound is false of the code (C93_fails): repeated certificate sections other than the first and repeated token lists are appended without limit. |
| C94 Lost reports | partial | report encoder and decoder with any table; the server for the witness | C32 for strays that do not end a frame, C33 for what a call delivers, induction over the frames; counting ends for the converse; concrete witness through the whole server. Holds just if of every incomplete frame the last report is among the lost ones (C94_loss_partial, C94_exact_iff); the number of frames delivered is that of the ends that arrived (C94_count). Otherwise what arrived is delivered as a frame (C94_truncated), or parts of two frames as one (C94_glued); C94_fails: the loss of one report of a correct frame can end the server. |
| C95 Commands through the whole stack | partial | Model: Model/Serde, Packet, Hid, Server, Handlers. Specification: Spec/Stack (Dialogue, Accessory, Survives, Garbled, GoodRequests). | C95_survives (one message end to end), C95_answers_iff (exactly which answers survive), C95_stack_partial by induction over the requests, through the packet-level session of C78 and the sizes of C80; C95_dialogue_unique; C95_fails is the question for a track title. Proved for requests the library can carry (fixed-size messages but ACKDataDropped, variable-size messages whose codecs agree, with a transaction while transactions are on, packet of 1..65535 bytes but not 256) whose answers can be read: C95_answers_iff says exactly which requests have unreadable answers (unsendable ones, display track texts, extended track infos other than 0, 3, 4), C95_fails shows one; also excluded are token lists whose acknowledgement has 256 bytes (C80). |
| C96 Repeated requests | partial | Model: Model/Handlers, Device, Server. Specification: Spec/Repeat (SameState, Accumulates, AnsweredAnew). | Case analysis over the handlers, the ones whose answers and effects do not depend on the state treated together; the frame level through the decoder, whose second decoding is the first (decode_again). C96_state_iff and C96_answers_iff say exactly which requests are repeatable: not tokens, sections of a certificate after the first, the last section and the end of the identification (state), and not changes of the UI mode, the last section, the end of the identification and the question for the time once it has passed (answers). C96_frame_partial is the claim at the level of frames for the others. C96_fails: a section of a certificate sent again is in the certificate twice, and acknowledged both times. |
| C97 Independence of the Go release | partial | Model: Model/Toolchain (the functions that reach binary.Size(nil), with the release as a parameter). Specification: Spec/Toolchain (UnknownKind, OldFatal, ComesTo). | The decoder by cases on the kind of the token at each position of the list, by induction on it; sessions by induction on the reads, with C54. C97_current: the current build is the one of all other properties. C97_decoder, C97_panics_iff: the older one differs exactly on tokens of unknown kind, where it panics. C97_survived, C97_same_partial: otherwise sessions are the same. C97_fails: one frame that kills the server of the older build and not the current one. |
| C98 The send command as a whole | partial | Model: Model/Sending (two goroutines, in one process), Model/Cli. Specification: Spec/Sending. | Invariants over all schedules: the state of the server is the one after a beginning of the answers; the writes depend only on the number of turns. That a process all of whose goroutines wait is ended by the runtime with status 2 is assumed. C98_prefix (order), C98_trace (the theorems of C77 apply) and C98_server (the server in it is the one of serve) hold always; C98_independent and C98_complete_partial as long as the server does not crash the process, C98_crashed_iff says when. C98_fails: six bytes from the device stop the sending. C98_file: what is in the trace file at any time. C98_no_success, C98_ends_iff: the command never ends with status 0. |
| C99 Independence of the lingo packages | proved | Model: Model/Packages (the functions that consult the maps, with the maps as a parameter; init of each package). Specification: Spec/Packages. | What is registered under an id by packages imported once each is what all of them register if its lingo is among them, else nothing (induction over the packages); types likewise. C99_decoded, C99_unknown (packets), C99_sent, C99_refused (messages), C99_order, C99_all. |
| C100 What the checksum detects | proved | Model: Model/Packet. Specification: Spec/Damage (sums, inverted bits), Spec/Wire. | The reader's outcome behind a start byte and a header (Lemmas/Packet) with the sum of the original packet subtracted; the table of one inverted bit over all 256 bytes and 8 bits, of two over all pairs, by the kernel. C100_exact; C100_reordered, C100_two_bits, C100_lost, C100_lost_before_packet, C100_inserted follow from it. |
| C101 Reports that arrive several times | proved | Model: Model/Hid (encoder, decoder). Specification: Spec/Repeats (Heard, HeardAll, Harmless), Spec/Hid. | The exact characterisation of a delivered frame (C33) applied to the repeated reports; length of the data and number of frames for the converse. C101_repeated gives the exact frames, C101_exact_iff the condition. |
| C102 Different messages have different bytes | partial | Model: Model/Serde, Model/Codecs. Specification: Spec/Unambiguous (Sends, LooksLike, Readable). | From the round trips (C14, C15): the packet is read back as either. For the exception the bytes of ACKDataDropped are rewritten as those of ACKPending and read back as it. Messages of fixed size: exact (C102_fixed_iff). Messages with codecs of their own: those the receiver can take back, both senders in the same mode (C102_unambiguous_partial). False of the code otherwise (C102_fails): the texts of display-remote track infos are not sent, and a name sent with transactions has the bytes of another sent without. |
| C103 What the errors of the command codec say | proved | Model: Model/ErrText (texts next to the places that make the errors), Model/Serde, Model/Codecs. Specification: Spec/ErrText (PacketFails, BodyFails, CodecFails, SendFails: causes in terms of the bytes). | Codec by codec: the decoder fails with a text iff the specification gives it (C103_texts, C103_send_texts), by induction over token lists and artwork records; the corollaries from that and the injectivity of id texts (C71). The wording of encoding/binary for values without fixed size varies between Go releases and is a parameter. Two oddities are in the exact characterisation: a missing transaction gives a bare error (C103_bare_iff), and a known acknowledgement of an unexpected length is called an unknown command. |
| C104 What the log says went wrong | proved | Model: Model/LogText (an error with its text; the log with texts), over Model/Trace, Model/Hid, Model/Packet, Model/Log, Model/LogView, Model/ErrText. Specification: Spec/LogText (LineFails, DirFails, MsgFails, Tells, CallSays, HeardT, TextItems, RunSaid, ViewSaid, FieldsShown). | Texts by cases on the cause, both directions; files by induction over the lines (Tells exists and is unique); frames by induction over the reads using the classification of calls from C87; the log by the inductions of C82 and C83 with texts; screen by C81. Texts of the operating system's errors come with the device's answers; those of encoding/binary are a parameter (as in C103). The texts are a layer over the models of C33, C75, C82, C83; C104_frames_same, C104_reads_same, C104_load_same, C104_write_same, C104_same and C104_serve_same say that nothing else changes. |
| C105 What the commands say when they begin | proved | Model: Model/CliText (openingT, startT, complaint) beside Model/Cli. Specification: Spec/CliText (Steps, SetsOff, CannotOpen). | Each opening is shown to do what one step of SetsOff says (case analysis on what the operating system answers), steps are composed; C105_one shows that SetsOff determines log and standard error, C105_same that events and exit status are those of C88. The texts of the operating system are a parameter; the help printed after a usage error is left out. C105_same relates it to the run of C88. |
| C106 One report held in memory | proved | Model: Model/Single (decodeRound, singleRounds), Model/Hid (singleReadReport). Specification: Spec/Single (IsSingle, heldAfter), Spec/Hid (Accepted, Ends). | Induction on the number of rounds with the buffer generalized; C106_same ties it to the decoder of C33. Tables whose matching definition has a negative payload are excluded by Accepted (the decoder panics there). |
| C107 Whatever a caller puts into a payload is encoded or refused | partial | Model: Model/Any (Held, Payload, encodePayload, marshalCmd, respond). Specification: Spec/Any (Sends, SendsBare, Crashes, Complete). | Case analysis over the kinds of payload, induction on token lists; C107_same ties it to the encoder of C17 and C90. Exact: C107_packet (what is sent), C107_crashes_iff, C107_refused_iff, C107_respond. False of the code (C107_fails): a nil info panics, the display remote leaves out an info without fixed size and sends the rest, messages whose MarshalBinary is a method of the pointer are refused by value. Proved for payloads without nil (C107_returns_partial) and outside the display remote (C107_whole_partial). Numbers, maps and the like as payload are not modelled. |
| C108 Who may keep and change which bytes | partial | Model: Model/Memory (append, store, writePacket, rawReadReport, readFrameLoop, writeFrameLoop on arrays), Model/Alias (readPacket). Specification: Spec/Memory (Values: every slice a value of its own; over). | Invariant: every slice held lies before the writer's end or in another array; refinement of the caller on values, step by step. Byte-wise comparison of arrays before and after a store. Proved: a caller that only looks, cuts, writes and asks for Bytes sees slices as values (C108_writer_partial, C108_kept); storing into a payload is harmless (C108_store_payload); reports handed to a writer have arrays of their own (C108_encoder); the decoder takes over the data of a report in time (C108_decoder). False of the code (C108_fails): appending to Bytes or to a payload overwrites packets, exactly as C108_append_bytes and C108_append_payload say; a report read is overwritten by the next (C108_reports_overwritten). |
| C109 Accessories served side by side | partial | Model: Model/Together (any number of loops sharing buffer and counter, steps: one read, one command, one sending). Specification: Spec/Together (SameButNumber, Numbered, handed) and the loop alone (processFrames). | Simulation of every loop of the process by the loop alone, over any schedule; invariants of counter and buffer along the log of commands handled. Proved: the frames are those written to the accessory alone up to the numbers of the iPod's requests (C109_answers), crashes (C109_crash), the frames written to an accessory carry the answers computed for it (C109_written), how requests are numbered across accessories (C109_numbers), which certificates are handed over (C109_certificates); everything is as alone if the others neither start nor end an identification nor send certificates (C109_same_partial), the certificate is the accessory's own if no other sends a section meanwhile (C109_own_certificate_partial). False of the code in general (C109_fails): a section from another accessory gets into the certificate; another StartIDPS makes two requests to the same accessory carry the same number. Commands are handled one at a time: data races on the buffer are not modelled. |
| C110 The emulated iPod as a whole, byte for byte | proved | Model: the whole server (processFrames, UnmarshalCmd, Lookup, the codecs, the four handlers, MarshalCmd, WritePacket) with the device of cmd/ipod. Specification: Spec/Emulator, a function from bytes to bytes with its own state and a table of reactions, without message types, codecs, registry and handlers; only the table of message lengths (wireTable) is shared with other properties. | Every packet: its number is split off, the table of lengths is compared with the registry (decide over the whole table, lifted), every type of message is decoded and handled and the answers encoded (one lemma per kind of reaction); tokens by induction. Sessions by induction over the reads; uniqueness of the specified course gives the converse. C110_session (the bytes written and the state left, both directions), C110_crash, C110_start (from the start of the process), C110_packet (one packet), C110_memory (nothing else is remembered), C110_written with C110_lengths and C110_frame (what can be on the wire; an acknowledgement of tokens of exactly 256 bytes is framed with the length byte 0, as the specified iPod does it too: C01_fails_at_256). The device is the one of cmd/ipod. |
| C111 ipod serve as a function of what is read from the device file | proved | Model: session (Model/Record: Live.onRead, WriteFrame, raw writer, tracer) with the device of cmd/ipod and the two tables. Specification: Spec/Gadget, functions on bytes (rooms, reportsOf, packetsIn, exceeds, Gadget.deeds) over Spec/Emulator; of the model only the results of Read are used. | Frames: strong induction over the bytes, comparing the search for packets with Scan. Reports: the tables by decide over all ids and all sizes below 767, larger sizes by a lemma; WriteFrame by induction over its rounds. Sessions by induction over the reads. C111_session (all operations on the device; or the crash on a frame that announces too much, and all before it), C111_exact (without such frames, for every growth of buffers), C111_trace (the file of -w), C111_state (state, end, crash), C111_dies (the deadly packets). Whether a frame that announces too much crashes the server or is skipped depends on the memory behind it (C54, C06). The packets are those of C110. |
| C112 What an accessory can find out, and what it can bring about | proved | Model: processFrames with the device of cmd/ipod. Specification: Spec/FindOut (three packets) and `written` (what is written, or the crash); the statement is about the written bytes only. | Telling apart: one experiment for each part of the state, computed with the iPod of C110 (the time by induction over the number of questions); the other direction from C91_depends and C110_memory. Reachability: the UI mode is an invariant over all reactions; the other direction by constructing the session, induction over the number of requests. C112_tell_apart (iff), C112_reachable (iff), C112_as_new. That StartIDPS alone does not suffice for a fresh start is C91. The number of the last request can be found out also while transactions are off, because answers are written in the mode the frame ends with (C55). |
| C113 ipod replay as a function of the text of the trace file | proved | Spec/Playback.lean: the text of a trace as messages (fileMessages), as reads (fileReadsN), as reports sent (fileSends), the gadget of Spec/Gadget on reads (Gadget.plays). | Lemmas/Playback.lean: the text functions against the relations of C40/C89 (LooseLine, Told), then file_reads; run_plays by induction on the reads over read_turn (C111). Props/Playback.lean. C113_replay, C113_serve: status and frames are those of the specified gadget (Gadget.plays) on the reads the text stands for (fileReadsN), or the process crashed and one of the reads makes up a frame in which a packet announces more than the frame has. C113_ends, C113_spins: when it ends and when never. C113_send: what send hands to the device. |
| C114 ipod view as a function of the text of the trace file | proved | Spec/Playback.lean: what is shown of messages (shows, firstFrame), which packets cannot be decoded (survived); Spec/Shown.lean: what is to be seen of a packet (SeenAs), with the specification of decoding of Spec/Decode. | Lemmas/Playback.lean: firstFrame against ReadFrame, shows against the relation Viewing of C58 (unique), dumpLoop_fate by induction on the rounds. Lemmas/Shown.lean: packet_seen by lookup_hear and decodePayload_iff. Props/PlaybackView.lean. C114_view, C114_exact: status, frames and commands. C114_in_order, C114_all: the frames of each direction. |
| C115 The handlers with any device and any writer | proved | Model/Effects.lean: the handlers as programs that make calls (free monad), run against a world that answers each call by any function of the history, or not at all. Spec/Effects.lean: the courses of each request of the General lingo (General), the device without surprises (plain). | Lemmas/Effects.lean: the courses of a program, independent of worlds (Done, runs_iff: each course has a world that produces it; stuck_iff). Lemmas/EffectsGeneral.lean: both directions for HandleGeneral; EffectsOther.lean: the other lingos; EffectsPlain.lean: agreement with Model/Handlers.lean by evaluation on states. Props/Effects.lean. C115_general: exactly the listed courses; C115_general_unfinished, C115_unfinished: calls that do not come back. C115_display, C115_extended, C115_audio, C115_start, C115_packet: the others. C115_plain: agreement with Model/Handlers.lean. |
| C116 What ipod serve does and says, in order, also when the device refuses reports or the program crashes | proved | Model/Voice.lean: the serve loop with the operations on the device and the log lines in one list, cut at the reads, with the lines before a panic. Spec/Voice.lean: Serves, by the meaning of reports, packets and commands; Watched relates what happened to the items. | Props/VoiceRun.lean: the reader by recursion on packets (readVoiced_cases), the writer by induction on the reports of a frame, the loop by induction on the reads (run_serves, run_ops), counts of the lines over Serves. Props/Voice.lean. C116_serves: the sequence; C116_ops: the operations are those of session (C95, C104); C116_refused, C116_end: what the log says about writes and the end (for a device whose own lines are messages only, which deviceLines_plain shows of the emulated iPod); C116_crash: the last lines of a crash; C116_so_far: nothing depends on what is read later. |
| C117 Reports that arrive in another order than they were sent | proved | Model/Hid.lean (decoder, encoder) and Model/Packet.lean as for C29, C94, C100. Spec/Order.lean: gathered, the frames by link control bytes; Undisturbed. | Induction on the reports with those since the last end as accumulator (arriving_parts); the shape of a written frame (written_shape), position of the first and last report in a permutation, lengths; chunks_last and C100_exact for the packet. Props/Order.lean. C117_arriving: what is delivered of any reports; C117_exact_iff: when frames in shuffled order are delivered as sent; C117_unnoticed: the packet of a frame whose middle reports change places is accepted (first report of at least 4 bytes of data, payload lengths WritePacket can write); C117_fails: a concrete packet of which the reader returns another payload. |
| C118 How many reports a frame takes | proved | Model/Hid.lean (pick, WriteFrame). Spec/Fewest.lean: CarriedIn (any way to carry a frame), LastIn, LargestLast. | Induction on the chunks of a frame: Pick takes the last report while nothing fits; total data of any carrying against the largest payload. For the converse a frame of twice the largest payload. Props/Fewest.lean. C118_count, C118_fewest_iff (for which tables no frame could be carried by fewer), C118_tables, C118_not_least (bytes). |
| C119 Frames written by several goroutines | proved | Model/Writers.lean: goroutines with the variables of their call of WriteFrame, one round of its loop per step (writeFrameLoop_rounds: the loop of Model/Hid is these rounds). Spec/Writers.lean: Mixed. | Invariant: what each goroutine has still to hand over (Owes); converse by a measure of steps without report. What arrives by C117_arriving; the data lost when a frame is interrupted, by induction on the mixture with at most one frame open (mixed_whole). Props/Writers.lean. C119_orders_iff: the possible orders of the reports; C119_received: what the other side is given; C119_intact_iff: when that is what was written; C119_no_panic, and C119_panic_iff for any table; C119_fails: a packet nobody wrote. A call of WriteReport is one step, and it succeeds. |
| C120 Packets in frames that lost reports | partial | Spec/Lossy.lean: what it is for a packet to be whole, for its end to arrive. The receiving and serving functions of Model/Hid, Model/Packet, Model/Server. | A report has more data than there is padding (Cut; for the encoder by chunks_sizes), so a frame that lost one is shorter than its packet (too_short); Scan of such a frame finds nothing (short_scan); induction over the packets for the server. Props/Lossy.lean. Violated by the code in three ways, each with a witness (C120_fails): a packet inside the payload of a packet that lost a report is answered; a lost last and a lost first report make a third packet; the server panics at a frame shorter than its packet. Proved: for frames cut as the encoder cuts them (C120_cut) or an accessory may, with no start byte inside the packets and, of each, the first report or none arriving, exactly those frames are delivered whose last report arrives (C120_frames); an incomplete one is never read as a packet, and panics iff the memory behind the frame ends too early or completes the checksum (C120_packet); so the server panics for that reason or acts on the whole packets only (C120_server_partial, C120_served_partial). |
| C121 Logs of older versions made into traces | partial | Model/OldLog.lean: grep and the two perl substitutions, with the backtracking of .* spelled out. Spec/OldLog.lean: what is in the last brackets of a line, which frame a line tells of, and a log. | What a greedy .* with a continuation gives is characterised (star_some, star_none), from which the match is the last brackets (matchHere_some); a parity argument shows the refusal. C89 gives the loading. Props/OldLog.lean. Violated by the code: the script writes no space after the sign, and UnmarshalText skips the two bytes before the digits, so of an entry whose first digit follows the bracket it drops that digit; every log with such a line is refused (C121_fails, for all logs). Proved: exactly what becomes of any line (C121_line), and that with a space after the bracket the converted log is loaded as the frames told of (C121_converted_partial). |
| C122 Bytes damaged in transit | partial | Spec/Damaged.lean: what noticeable damage is, which length a frame says, reports with other data. | The scan of a frame with one start byte is computed from the header (header_scan); zeros behind the packet do not change its sum, so a packet that still covers all that was sent fails its checksum. Sessions by induction as in C120; reports with other data are again a cut frame, so C120_frames delivers them. Props/Damaged.lean. Violated by the code, by one byte of damage already (C122_fails): with the length byte replaced by 0 the next bytes are taken for the length and a command is answered that no packet carries; with a larger one the server panics (the length is not checked against the frame); with a payload byte replaced by the start byte the payload is searched for packets after the checksum failed. Proved: exactly what is read from a damaged packet by the length it now says (C122_read), nothing if the length is untouched or the start byte is not (C122_unread), every one-byte change is covered (hit_damaged), and for sessions, from reports on, that unless the server panics at a packet that became longer, damaged packets leave no trace if none became shorter (C122_server_partial, C122_served_partial). |
| C123 A disturbed connection recovers | partial | Spec/Recover.lean: the reports of one frame; frames whose packets can be told without looking behind them. | C74_online and run_rest turn the state in the middle of a ReadFrame into the rest of the loop; the first report of a whole frame empties the buffer, so only the memory behind it differs; arriving_parts delivers the frames, and a scan that does not crash does not depend on the memory behind the frame (scan_spare). Props/Recover.lean. Violated by the code (C123_fails): a packet that goes beyond the end of its frame is checked against what earlier frames left in memory, and if that happens to complete the checksum the server panics, where on a new connection it ignores the frame. Proved for all frames whose packets can be told from the frame alone, among them all frames the library writes (C123_recovers_partial, C123_packets_partial, C123_handshake_partial); and for all frames that unless one of the two crashes both do the same (C123_alike). |
| C124 Errors of goroutines that share a transport | proved | Model/Callers.lean: the goroutines of Model/Writers with refusals and returned errors. Spec/Callers.lean: calls one after the other by a goroutine alone (Alone), the outcome of one call (CallOf). | Ahead describes what a goroutine in any state still attempts and returns; it is shown equivalent to runs of the sequential WriteFrame (ahead_iff), pulled backwards through every step (step_facing) and, for the converse, used to build a schedule (attempt_next, finish_all). Props/Callers.lean. A call of WriteReport is one step; the report writer's own synchronisation is not part of the library. C124_iff is exact for all tables, C124_alone and C124_calls are its reading for one goroutine and one call. C124_ends gives the turns that are enough: per frame its length plus two. What the reports taken amount to at the other side: C94, C119. |
| C125 A frame arrives just if WriteFrame returned nil | proved | Model/Callers.lean, Model/Hid.lean. Spec/Confirmed.lean: the frames of calls that returned nil (Confirmed), schedules in which calls exclude each other (Locked), repeated calls (Insisted). | Induction over the schedule, backwards (run_locked): the goroutines together do what one goroutine does that makes all the calls in the order in which the lock was taken; its calls (C124) are transfers that are complete or lack their end, so C94 applies. Props/Confirmed.lean. The lock is the callers', there is none in the library (without one: C119). A report that is refused though it went out (a device that takes the data and then reports an error) may make a frame arrive whose call failed, and twice if it is repeated; an example shows it. |
| C126 Goroutines that read frames from one transport | proved | Model/Readers.lean (the shared buffer, rounds of the loop from Model/Single.lean). Spec/Readers.lean: what happens from the first to the last report of a frame (FrameTaken), the reports read since the last call began (SinceCall), what remains (AfterFrames), calls that exclude each other (OneAtATime). | Invariant over the schedule (readers_step): what has happened splits into complete frames and a part of the next, and the buffer holds the data of the reports of this part that were read since the last call began. Termination by a measure (two per report left, one per goroutine that is not in a call). Props/Readers.lean. With a lock: simulation of one goroutine (locked_step), Props/ReadersLock.lean. Statement by statement: Model/Racers.lean, Spec/Racers.lean (Excluding); what a call in any place would return if left alone (resume) does not change with its steps (racers_step), Props/Racers.lean. Of the two models: forward simulation (finer_step), Props/RacersFiner.lean. Nothing invented: the reports that came are, up to order, those in the buffer, those in hand, those gone and those to come (made_step), Props/RacersParts.lean. The frames in order: with C29, Props/RacersOrder.lean. In Model/Readers a round of the loop (reading a report and putting its data into the buffer) is one step; C126_exclusion and C126_glued are about Model/Racers, where each statement is one (races inside a method of bytes.Buffer are not modelled). C126_finer ties the two models together. What a call returns is what the buffer holds at that moment (how long the bytes stay valid: C108). C126_alone ties the steps to the model of ReadFrame used everywhere else. |
| C127 Several transports that read from one device | proved | Model/Listeners.lean (rounds of the loop from Model/Single.lean, one buffer per transport). Spec/Listeners.lean: what a transport has read (readBy), a frame as a transport sees it (partFor); whole frames as in Spec/Loss.lean. | Invariant over the schedule (listeners_step): for every continuation, the calls made so far, run on what the transport has read and the continuation, return what has been returned and are where the transport is. Distribution by constructing the schedule (listeners_reach). Whole frames by C94_exact_iff. Props/Listeners.lean. A read of the device gives one report, as the gadget driver does; a round of the loop of ReadFrame is one step. With one decoder shared by goroutines: C126. |

## Axioms per theorem

From `#print axioms` on every theorem of the manifest (no other axiom occurs, in particular not `sorryAx`,
`Lean.ofReduceBool` or `Lean.trustCompiler`).

* none: `C43_direction_must_stay`, `C44_between_unnoticed`.
* `propext`: `C06_fails`, `C09_crc8_iface`, `C28_string_messages`, `C45_old_trace_remains`, `C79_registered`, `C89_lines`, `C91_device`, `C97_ack_panics`, `C97_witness`, `C97_witness_unknown`, `C105_begins`, `C105_one`, `C108_fails`.
* `propext`, `Quot.sound`: `C02_written_is_stream`, `C07_only_appends`, `C07_error_iff_empty`, `C08_wire_format_partial`, `C08_fails_at_256`, `C08_oversize`, `C08_exact_iff`, `C09_checksum_value`, `C09_checksum_perm`, `C09_crc8_chunks`, `C11_registered_ids_fit`, `C12_lookupID`, `C12_candidates`, `C12_register_error`, `C13_lookup_found`, `C14_dropped_ack_not_roundtrip`, `C20_reset_then_count`, `C21_copy`, `C21_delta`, `C21_delta_compose`, `C21_delta_zero`, `C22_no_fixed_size`, `C24_token_isolation`, `C26_artwork_incomplete`, `C31_any_table`, `C33_no_panic`, `C34_raw_writer`, `C35_raw_roundtrip`, `C35_raw_read_iff`, `C36_no_progress`, `C36_stuck`, `C38_written_text`, `C38_text_roundtrip`, `C39_file_roundtrip`, `C40_accepted_iff_partial`, `C40_refused_partial`, `C40_accepts_malformed`, `C40_accepts_wellformed`, `C41_tracer`, `C42_direction_reader`, `C43_queue_is_fifo`, `C43_bad_direction_panics`, `C46_response_transaction`, `C46_originated_transaction`, `C57_reads_exhausted`, `C58_loads`, `C63_overwritten`, `C64_undecodable`, `C70_names`, `C70_names_distinct`, `C71_trx_text_partial`, `C71_trx_go_text_fails`, `C76_sent`, `C76_all_sent_iff_partial`, `C77_fails`, `C78_conversation_unique`, `C81_one_line`, `C81_readable`, `C83_lengths`, `C84_silent`, `C84_modest`, `C86_registry`, `C86_no_errors`, `C89_told_unique`, `C89_reads`, `C89_direction`, `C89_overwritten`, `C92_steady`, `C95_dialogue_unique`, `C99_sent`, `C99_refused`, `C99_all`, `C102_fails`, `C103_send_agrees`, `C104_write_same`, `C104_write`, `C104_report`, `C104_always`, `C104_direction`, `C104_direction_agrees`, `C104_line_agrees`, `C104_line`, `C104_marshal`, `C104_marshal_agrees`, `C104_tells`, `C104_load`, `C104_load_same`, `C104_reads`, `C104_reads_same`, `C106_report`, `C106_short`, `C106_frame`, `C106_unknown`, `C106_never`, `C106_grows`, `C106_same`, `C107_same`, `C107_respond`, `C114_in_order`, `C114_all`, `C115_unfinished`, `C115_display`, `C115_extended`, `C115_audio`, `C115_start`, `C115_plain`, `C118_not_least`, `C119_panic_iff`, `C119_fails`, `C121_line`, `C124_no_panic`, `C124_ends`, `C126_exclusion`, `C126_finer`, `C126_one`, `C126_made_of`, `C126_no_panic`, `C126_alone`, `C126_lock_any`, `C127_own`, `C127_any`.
* `propext`, `Classical.choice`, `Quot.sound`: the other 409 theorems.
