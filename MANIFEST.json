{
 "claims": [
  {
   "property": "C01",
   "status": "partial",
   "theorems": [
    "Props.C01_packet_roundtrip_partial",
    "Props.C01_fails_at_256",
    "Props.C01_packet_roundtrip_iff",
    "Props.C01_fails_at_256_within"
   ],
   "note": "Proved for every size 1..65535 except 256; at 256 the code writes header byte 0 and the payload never comes back (C01_fails_at_256)."
  },
  {
   "property": "C02",
   "status": "proved",
   "theorems": [
    "Props.C02_stream_in_order",
    "Props.C02_written_is_stream"
   ],
   "note": ""
  },
  {
   "property": "C03",
   "status": "proved",
   "theorems": [
    "Props.C03_success_iff"
   ],
   "note": ""
  },
  {
   "property": "C04",
   "status": "proved",
   "theorems": [
    "Props.C04_corruption_detected",
    "Props.C04_written_corruption_detected"
   ],
   "note": ""
  },
  {
   "property": "C05",
   "status": "proved",
   "theorems": [
    "Props.C05_progress",
    "Props.C05_loop_terminates"
   ],
   "note": ""
  },
  {
   "property": "C06",
   "status": "partial",
   "theorems": [
    "Props.C06_panics_iff",
    "Props.C06_fails",
    "Props.C06_no_panic_partial"
   ],
   "note": "False of the code: a frame announcing more bytes than it holds can panic. Exact characterisation C06_panics_iff, witness C06_fails, partial for frames whose announced length fits."
  },
  {
   "property": "C07",
   "status": "proved",
   "theorems": [
    "Props.C07_only_appends",
    "Props.C07_error_iff_empty"
   ],
   "note": ""
  },
  {
   "property": "C08",
   "status": "partial",
   "theorems": [
    "Props.C08_wire_format_partial",
    "Props.C08_fails_at_256",
    "Props.C08_oversize",
    "Props.C08_exact_iff"
   ],
   "note": "Proved for every size 1..65535 except 256, negation at 256 (C08_fails_at_256); C08_exact_iff says both at once."
  },
  {
   "property": "C09",
   "status": "proved",
   "theorems": [
    "Props.C09_checksum_value",
    "Props.C09_checksum_completes",
    "Props.C09_checksum_perm",
    "Props.C09_crc8_chunks",
    "Props.C09_crc8_iface"
   ],
   "note": ""
  },
  {
   "property": "C10",
   "status": "proved",
   "theorems": [
    "Props.C10_id_packing",
    "Props.C10_id_injective"
   ],
   "note": ""
  },
  {
   "property": "C11",
   "status": "proved",
   "theorems": [
    "Props.C11_id_written",
    "Props.C11_id_roundtrip",
    "Props.C11_id_roundtrip_iff",
    "Props.C11_registered_ids_fit"
   ],
   "note": ""
  },
  {
   "property": "C12",
   "status": "proved",
   "theorems": [
    "Props.C12_lookupID",
    "Props.C12_candidates",
    "Props.C12_register_error"
   ],
   "note": ""
  },
  {
   "property": "C13",
   "status": "proved",
   "theorems": [
    "Props.C13_lookup_found",
    "Props.C13_lookup_not_found",
    "Props.C13_registered_not_found"
   ],
   "note": ""
  },
  {
   "property": "C14",
   "status": "partial",
   "theorems": [
    "Props.C14_fixed_roundtrip_partial",
    "Props.C14_dropped_ack_not_roundtrip",
    "Props.C14_dropped_ack_always",
    "Props.C14_fixed_roundtrip_iff"
   ],
   "note": "Proved for every fixed-size message, transaction and mode except ACKDataDropped sent without transaction, which is received as ACKPending whatever it says (C14_dropped_ack_not_roundtrip, C14_dropped_ack_always); exactly: C14_fixed_roundtrip_iff."
  },
  {
   "property": "C15",
   "status": "partial",
   "theorems": [
    "Props.C15_var_roundtrip_partial",
    "Props.C15_track_text_not_roundtrip",
    "Props.C15_var_roundtrip_iff"
   ],
   "note": "Proved for all messages with a codec in both directions except the text infos of RetIndexedPlayingTrackInfo, which are sent without text and refused (C15_track_text_not_roundtrip); exactly: C15_var_roundtrip_iff."
  },
  {
   "property": "C16",
   "status": "proved",
   "theorems": [
    "Props.C16_mode_last_switch"
   ],
   "note": ""
  },
  {
   "property": "C17",
   "status": "proved",
   "theorems": [
    "Props.C17_packet_layout",
    "Props.C17_no_wire_form",
    "Props.C17_any_id"
   ],
   "note": ""
  },
  {
   "property": "C18",
   "status": "partial",
   "theorems": [
    "Props.C18_unmarshal_panics_iff_partial",
    "Props.C18_unmarshal_can_panic",
    "Props.C18_other_commands_return_partial"
   ],
   "note": "False of the code. Exact characterisation of the panicking packets (C18_unmarshal_panics_iff_partial), witnesses, and absence of panics on all other commands."
  },
  {
   "property": "C19",
   "status": "proved",
   "theorems": [
    "Props.C19_decode_result"
   ],
   "note": ""
  },
  {
   "property": "C20",
   "status": "proved",
   "theorems": [
    "Props.C20_reset_then_count",
    "Props.C20_interleaving",
    "Props.C20_distinct"
   ],
   "note": ""
  },
  {
   "property": "C21",
   "status": "proved",
   "theorems": [
    "Props.C21_copy",
    "Props.C21_delta",
    "Props.C21_delta_compose",
    "Props.C21_delta_zero"
   ],
   "note": ""
  },
  {
   "property": "C22",
   "status": "proved",
   "theorems": [
    "Props.C22_struct_encoding",
    "Props.C22_struct_decoding",
    "Props.C22_no_fixed_size"
   ],
   "note": ""
  },
  {
   "property": "C23",
   "status": "proved",
   "theorems": [
    "Props.C23_buttons_encoding",
    "Props.C23_buttons_decoding",
    "Props.C23_buttons_roundtrip"
   ],
   "note": ""
  },
  {
   "property": "C24",
   "status": "proved",
   "theorems": [
    "Props.C24_tokens_roundtrip",
    "Props.C24_token_isolation",
    "Props.C24_tokens_layout"
   ],
   "note": ""
  },
  {
   "property": "C25",
   "status": "partial",
   "theorems": [
    "Props.C25_tokens_acked_partial",
    "Props.C25_unknown_token_lost"
   ],
   "note": "Proved while every token is of a known kind: one acknowledgement per token, in order, with its kind and status. With one token of an unknown kind the whole answer cannot be encoded and nothing is sent (C25_unknown_token_lost)."
  },
  {
   "property": "C26",
   "status": "proved",
   "theorems": [
    "Props.C26_sample_rates",
    "Props.C26_artwork_formats",
    "Props.C26_artwork_incomplete"
   ],
   "note": ""
  },
  {
   "property": "C27",
   "status": "partial",
   "theorems": [
    "Props.C27_state_info",
    "Props.C27_track_info_partial",
    "Props.C27_track_text_lost"
   ],
   "note": "State infos: all. Track infos: capabilities and artwork count; the text infos are lost (C27_track_text_lost)."
  },
  {
   "property": "C28",
   "status": "proved",
   "theorems": [
    "Props.C28_string_messages",
    "Props.C28_model_number",
    "Props.C28_device_strings"
   ],
   "note": ""
  },
  {
   "property": "C29",
   "status": "proved",
   "theorems": [
    "Props.C29_frame_roundtrip",
    "Props.C29_written",
    "Props.C29_frames_roundtrip"
   ],
   "note": ""
  },
  {
   "property": "C30",
   "status": "proved",
   "theorems": [
    "Props.C30_link_control"
   ],
   "note": ""
  },
  {
   "property": "C31",
   "status": "partial",
   "theorems": [
    "Props.C31_fits_descriptor",
    "Props.C31_report_sizes",
    "Props.C31_best_legacy",
    "Props.C31_best_default_partial",
    "Props.C31_default_not_best",
    "Props.C31_any_table"
   ],
   "note": "Descriptor part and the legacy table proved. C31_any_table: ids and sizes for tables of any kind (id bytes are ids modulo 256). The default table is not ordered by size: best choice proved while at least ten bytes are left, negation for frames of at most nine bytes (C31_default_not_best)."
  },
  {
   "property": "C32",
   "status": "proved",
   "theorems": [
    "Props.C32_recovers",
    "Props.C32_recovers_from_abort",
    "Props.C32_recovers_from_error"
   ],
   "note": ""
  },
  {
   "property": "C33",
   "status": "proved",
   "theorems": [
    "Props.C33_delivered_iff",
    "Props.C33_no_panic"
   ],
   "note": ""
  },
  {
   "property": "C34",
   "status": "proved",
   "theorems": [
    "Props.C34_no_failure",
    "Props.C34_failure",
    "Props.C34_raw_writer"
   ],
   "note": ""
  },
  {
   "property": "C35",
   "status": "proved",
   "theorems": [
    "Props.C35_raw_roundtrip",
    "Props.C35_raw_read_iff",
    "Props.C35_short_read"
   ],
   "note": ""
  },
  {
   "property": "C36",
   "status": "proved",
   "theorems": [
    "Props.C36_terminates",
    "Props.C36_no_progress",
    "Props.C36_stuck"
   ],
   "note": ""
  },
  {
   "property": "C37",
   "status": "partial",
   "theorems": [
    "Props.C37_end_to_end_partial",
    "Props.C37_default_partial",
    "Props.C37_legacy_partial",
    "Props.C37_end_to_end_iff"
   ],
   "note": "Proved for all payload sizes 1..65535 except 256, which the packet writer spoils wherever in a frame (C01_fails_at_256_within); everything arrives just if no payload has 256 bytes (C37_end_to_end_iff)."
  },
  {
   "property": "C38",
   "status": "proved",
   "theorems": [
    "Props.C38_written_text",
    "Props.C38_text_roundtrip"
   ],
   "note": ""
  },
  {
   "property": "C39",
   "status": "proved",
   "theorems": [
    "Props.C39_file_roundtrip"
   ],
   "note": ""
  },
  {
   "property": "C40",
   "status": "partial",
   "theorems": [
    "Props.C40_accepted_iff_partial",
    "Props.C40_refused_partial",
    "Props.C40_accepts_malformed",
    "Props.C40_accepts_wellformed"
   ],
   "note": "False of the code: anything is accepted in the second column and behind the digits (C40_accepts_malformed). The exact set of accepted lines is proved (C40_accepted_iff_partial)."
  },
  {
   "property": "C41",
   "status": "proved",
   "theorems": [
    "Props.C41_tracer"
   ],
   "note": ""
  },
  {
   "property": "C42",
   "status": "proved",
   "theorems": [
    "Props.C42_direction_reader"
   ],
   "note": ""
  },
  {
   "property": "C43",
   "status": "proved",
   "theorems": [
    "Props.C43_queue_is_fifo",
    "Props.C43_bad_direction_panics",
    "Props.C43_direction_must_stay"
   ],
   "note": ""
  },
  {
   "property": "C44",
   "status": "partial",
   "theorems": [
    "Props.C44_replayed_reads",
    "Props.C44_replay_same_partial",
    "Props.C44_fails",
    "Props.C44_replays_recorded",
    "Props.C44_replay_unnoticed_partial",
    "Props.C44_between_unnoticed"
   ],
   "note": "False of the code: a failing or empty read in the middle of a frame ends that frame live and is not recorded (C44_fails). Proved for every session in which such a read comes between frames or in a frame of which nothing more follows (C44_replay_unnoticed_partial), panics included; in general the replay is the session without the reads that were not recorded (C44_replays_recorded)."
  },
  {
   "property": "C45",
   "status": "partial",
   "theorems": [
    "Props.C45_only_this_session_iff_partial",
    "Props.C45_old_trace_remains"
   ],
   "note": "False of the code when the old file is longer (C45_old_trace_remains). Proved exactly when it holds: iff the old content is no longer than the new trace."
  },
  {
   "property": "C46",
   "status": "proved",
   "theorems": [
    "Props.C46_response_transaction",
    "Props.C46_originated_transaction",
    "Props.C46_fresh_numbers"
   ],
   "note": ""
  },
  {
   "property": "C47",
   "status": "proved",
   "theorems": [
    "Props.C47_ack_names_request"
   ],
   "note": ""
  },
  {
   "property": "C48",
   "status": "proved",
   "theorems": [
    "Props.C48_valid_messages"
   ],
   "note": ""
  },
  {
   "property": "C49",
   "status": "proved",
   "theorems": [
    "Props.C49_reported_mode",
    "Props.C49_mode_acks"
   ],
   "note": ""
  },
  {
   "property": "C50",
   "status": "partial",
   "theorems": [
    "Props.C50_setUIMode_iff_partial",
    "Props.C50_fails"
   ],
   "note": "False of the code: SetUIMode is acknowledged and ignored (C50_fails). Proved exactly when it holds: iff the mode set is the mode already in force."
  },
  {
   "property": "C51",
   "status": "proved",
   "theorems": [
    "Props.C51_certificate",
    "Props.C51_section_acks"
   ],
   "note": ""
  },
  {
   "property": "C52",
   "status": "proved",
   "theorems": [
    "Props.C52_tokens_held"
   ],
   "note": ""
  },
  {
   "property": "C53",
   "status": "partial",
   "theorems": [
    "Props.C53_lost_iff",
    "Props.C53_responses_written_partial",
    "Props.C53_fails"
   ],
   "note": "False of the code. Exact: a frame's treatment hands an empty frame to the transport iff one of the commands is of the seven unsendable kinds (C53_lost_iff), witness C53_fails; otherwise every response is written."
  },
  {
   "property": "C54",
   "status": "partial",
   "theorems": [
    "Props.C54_panics_iff",
    "Props.C54_survives_partial",
    "Props.C54_fails",
    "Props.C54_fails_malformed"
   ],
   "note": "False of the code (C54_fails, C54_fails_malformed). Exact characterisation of the sessions that panic (C54_panics_iff), and survival of all others."
  },
  {
   "property": "C55",
   "status": "partial",
   "theorems": [
    "Props.C55_carried_iff",
    "Props.C55_batch_mode",
    "Props.C55_transactions_kept_partial",
    "Props.C55_fails"
   ],
   "note": "False of the code (C55_fails). All responses of a frame are encoded in the mode its last packet leaves (C55_batch_mode); proved for frames that leave transactions on; exactly those carry the transactions (C55_carried_iff)."
  },
  {
   "property": "C56",
   "status": "partial",
   "theorems": [
    "Props.C56_frame_per_response_partial",
    "Props.C56_session_order",
    "Props.C56_received_partial"
   ],
   "note": "Exact: a response is on the wire as a packet iff its encoding has not 256 and at most 65535 bytes; the others are spoilt by the packet writer (C01_fails_at_256)."
  },
  {
   "property": "C57",
   "status": "proved",
   "theorems": [
    "Props.C57_error_skipped",
    "Props.C57_eof_ends",
    "Props.C57_keeps_reading",
    "Props.C57_reads_exhausted"
   ],
   "note": ""
  },
  {
   "property": "C58",
   "status": "partial",
   "theorems": [
    "Props.C58_loads",
    "Props.C58_view_partial",
    "Props.C58_frames_unique",
    "Props.C58_frames_total",
    "Props.C58_shows_prefix",
    "Props.C58_stops",
    "Props.C58_shows_all_partial",
    "Props.C58_terminates_partial",
    "Props.C58_viewing_unique",
    "Props.C58_fails",
    "Props.C58_fails_panic",
    "Props.C58_fails_unreadable",
    "Props.C58_complete_iff"
   ],
   "note": "False of the code in three ways: an incomplete frame of one direction stops the dump (C58_fails), overrunning packets panic (C58_fails_panic), one bad line and nothing is shown (C58_fails_unreadable). What is shown is characterised exactly (C58_view_partial, C58_viewing_unique, C58_stops); completeness when both directions end with a complete frame, and exactly when it holds (C58_complete_iff: no frame of one direction begins after the unfinished end of the other)."
  },
  {
   "property": "C59",
   "status": "proved",
   "theorems": [
    "Props.C59_audio_start",
    "Props.C59_signature_request"
   ],
   "note": ""
  },
  {
   "property": "C60",
   "status": "proved",
   "theorems": [
    "Props.C60_program",
    "Props.C60_listing",
    "Props.C60_deterministic"
   ],
   "note": ""
  },
  {
   "property": "C61",
   "status": "proved",
   "theorems": [
    "Props.C61_unknown_command"
   ],
   "note": ""
  },
  {
   "property": "C62",
   "status": "proved",
   "theorems": [
    "Props.C62_mask_text",
    "Props.C62_mask_distinct"
   ],
   "note": ""
  },
  {
   "property": "C63",
   "status": "partial",
   "theorems": [
    "Props.C63_stable_iff_partial",
    "Props.C63_overwritten",
    "Props.C63_unnoticed",
    "Props.C63_held_partial",
    "Props.C63_fails"
   ],
   "note": "False of the code: EAProtocol strings held by the server change when the next frame is read (C63_fails). Exact: a command can change iff it is an unknown one with a body or carries a nonempty EAProtocol string (C63_stable_iff_partial); what it then shows (C63_overwritten); the frames written are not affected (C63_unnoticed); everything else the server holds is what it received (C63_held_partial)."
  },
  {
   "property": "C64",
   "status": "proved",
   "theorems": [
    "Props.C64_replies",
    "Props.C64_undecodable",
    "Props.C64_identify",
    "Props.C64_end_idps",
    "Props.C64_state_info",
    "Props.C64_track_info"
   ],
   "note": ""
  },
  {
   "property": "C65",
   "status": "proved",
   "theorems": [
    "Props.C65_ack_status"
   ],
   "note": ""
  },
  {
   "property": "C66",
   "status": "proved",
   "theorems": [
    "Props.C66_queries",
    "Props.C66_setters"
   ],
   "note": ""
  },
  {
   "property": "C67",
   "status": "proved",
   "theorems": [
    "Props.C67_variable_messages"
   ],
   "note": ""
  },
  {
   "property": "C68",
   "status": "proved",
   "theorems": [
    "Props.C68_delivers_scan",
    "Props.C68_scan_exists_unique",
    "Props.C68_crash"
   ],
   "note": ""
  },
  {
   "property": "C69",
   "status": "proved",
   "theorems": [
    "Props.C69_constant_replies",
    "Props.C69_state_info",
    "Props.C69_track_info",
    "Props.C69_ext_track_info",
    "Props.C69_unknown_info",
    "Props.C69_signature_accepted",
    "Props.C69_signature_echo",
    "Props.C69_sample_rate"
   ],
   "note": ""
  },
  {
   "property": "C70",
   "status": "proved",
   "theorems": [
    "Props.C70_names",
    "Props.C70_names_distinct"
   ],
   "note": ""
  },
  {
   "property": "C71",
   "status": "partial",
   "theorems": [
    "Props.C71_id_text",
    "Props.C71_id_distinct",
    "Props.C71_trx_text_partial",
    "Props.C71_trx_go_text_fails"
   ],
   "note": "Ids and the plain text of transactions proved. The Go-syntax text of a transaction is the hexadecimal form of the characters of its plain text: C71_trx_go_text_fails, for every transaction."
  },
  {
   "property": "C72",
   "status": "proved",
   "theorems": [
    "Props.C72_identity"
   ],
   "note": ""
  },
  {
   "property": "C73",
   "status": "partial",
   "theorems": [
    "Props.C73_settings_iff_partial",
    "Props.C73_fails"
   ],
   "note": "False of the code: settings are acknowledged and forgotten (C73_fails). Proved exactly when it holds: iff the setting is zero."
  },
  {
   "property": "C74",
   "status": "proved",
   "theorems": [
    "Props.C74_online",
    "Props.C74_only_adds",
    "Props.C74_stops_iff"
   ],
   "note": ""
  },
  {
   "property": "C75",
   "status": "partial",
   "theorems": [
    "Props.C75_reads",
    "Props.C75_replay_ends_iff_partial",
    "Props.C75_runs_for_ever",
    "Props.C75_fails"
   ],
   "note": "False of the code: with a line of 64 KiB or more, or when the file cannot be read to its end, the server asks for ever (C75_fails, C75_runs_for_ever). Proved exactly when it holds (C75_replay_ends_iff_partial)."
  },
  {
   "property": "C76",
   "status": "partial",
   "theorems": [
    "Props.C76_sent",
    "Props.C76_all_sent_iff_partial",
    "Props.C76_recorded_session",
    "Props.C76_fails"
   ],
   "note": "False of the code: sending stops at the first report of less than three bytes (C76_fails). What is sent is characterised (C76_sent, C76_recorded_session) and so are the traces sent completely (C76_all_sent_iff_partial)."
  },
  {
   "property": "C77",
   "status": "partial",
   "theorems": [
    "Props.C77_directions_partial",
    "Props.C77_fails",
    "Props.C77_events",
    "Props.C77_orders_iff"
   ],
   "note": "Each direction is complete and in order under every schedule (C77_directions_partial, C77_events); the order between the directions can be wrong (C77_fails). Exactly the possible orders: C77_orders_iff."
  },
  {
   "property": "C78",
   "status": "partial",
   "theorems": [
    "Props.C78_conversation_unique",
    "Props.C78_served_iff_partial",
    "Props.C78_session_partial",
    "Props.C78_dialogue_partial",
    "Props.C78_identity"
   ],
   "note": "Proved for all sessions whose packets have 1..65535 bytes other than 256; packets of 256 bytes or more than 65535 are spoilt by the packet writer (C01_fails_at_256)."
  },
  {
   "property": "C79",
   "status": "partial",
   "theorems": [
    "Props.C79_registered",
    "Props.C79_received_partial",
    "Props.C79_sent",
    "Props.C79_received_iff"
   ],
   "note": "Proved for all messages, except ACKDataDropped received without transaction, which the registry takes for ACKPending (C14_dropped_ack_not_roundtrip); exactly: C79_received_iff."
  },
  {
   "property": "C80",
   "status": "partial",
   "theorems": [
    "Props.C80_sizes",
    "Props.C80_frames_iff_partial",
    "Props.C80_session",
    "Props.C80_fails"
   ],
   "note": "Exact: an answer arrives iff its encoding has not 256 bytes, which happens for acknowledgements of token lists only (C80_frames_iff_partial); C80_fails is such a list. Sessions without token lists are covered without exception (C80_session)."
  },
  {
   "property": "C81",
   "status": "proved",
   "theorems": [
    "Props.C81_line",
    "Props.C81_deterministic",
    "Props.C81_one_line",
    "Props.C81_colors",
    "Props.C81_readable"
   ],
   "note": ""
  },
  {
   "property": "C82",
   "status": "partial",
   "theorems": [
    "Props.C82_same",
    "Props.C82_log",
    "Props.C82_errors",
    "Props.C82_mode",
    "Props.C82_lengths_partial",
    "Props.C82_fails"
   ],
   "note": "Proved: one line for every event, in order, and nothing changed by logging (C82_log, C82_same); errors, mode and the lengths of the frames handed to the transport (C82_errors, C82_mode, C82_lengths_partial). False of the code: for an answer that cannot be encoded it logs a frame sent, of length 0, though nothing reaches the accessory (C82_fails). Texts of errors and the device's own lines are parameters."
  },
  {
   "property": "C83",
   "status": "proved",
   "theorems": [
    "Props.C83_view",
    "Props.C83_lengths"
   ],
   "note": ""
  },
  {
   "property": "C84",
   "status": "proved",
   "theorems": [
    "Props.C84_names",
    "Props.C84_identification",
    "Props.C84_certificate",
    "Props.C84_silent",
    "Props.C84_modest"
   ],
   "note": ""
  },
  {
   "property": "C85",
   "status": "partial",
   "theorems": [
    "Props.C85_handshake",
    "Props.C85_old_handshake",
    "Props.C85_over_reports_partial",
    "Props.C85_old_over_reports_partial"
   ],
   "note": "Complete at the level of packets, for all devices (C85_handshake, C85_old_handshake). Over HID reports except for requests or token acknowledgements of 256 bytes, which the packet writer spoils (C01_fails_at_256, C80_fails)."
  },
  {
   "property": "C86",
   "status": "proved",
   "theorems": [
    "Props.C86_number_iff",
    "Props.C86_tag_value",
    "Props.C86_id_tag",
    "Props.C86_registers",
    "Props.C86_registry",
    "Props.C86_no_errors"
   ],
   "note": "Complete for tags made of well-formed pairs without escapes in their values. StructTag.Get and ParseUint of the standard library are modelled; how escapes are read is a parameter."
  },
  {
   "property": "C87",
   "status": "partial",
   "theorems": [
    "Props.C87_trace",
    "Props.C87_view_writes_partial",
    "Props.C87_fails_part",
    "Props.C87_trace_partial",
    "Props.C87_view_partial",
    "Props.C87_replay_partial",
    "Props.C87_send",
    "Props.C87_fails",
    "Props.C87_fails_write"
   ],
   "note": "The trace is proved for all sessions, with failing reads, failing writes, end of input and panics (C87_trace: of the answers it contains the reports the device took; C87_trace_partial is the reading for sessions where all are taken). Replay: all sessions, whatever the device does with the answers and however the session ends, if no read fails amid a frame that is then continued. Viewer: for those in which moreover no frame received makes the packet loop panic, no answer shown has 256 or more than 65535 bytes, and the device takes no answer in part (C87_view_writes_partial). `send` (complete) stops at the first recorded read of less than three bytes (C76). False of the code otherwise. C87_fails: a read that fails within a frame makes the viewer show a frame the server never got. C87_fails_write: an answer the device does not take is not in the trace. C87_fails_part: after an answer taken in part the viewer may show nothing more."
  },
  {
   "property": "C88",
   "status": "partial",
   "theorems": [
    "Props.C88_opens",
    "Props.C88_refused",
    "Props.C88_missing_partial",
    "Props.C88_fails",
    "Props.C88_usage_iff",
    "Props.C88_files",
    "Props.C88_serve_status",
    "Props.C88_view_partial",
    "Props.C88_replay_partial",
    "Props.C88_view_status",
    "Props.C88_fails_table",
    "Props.C88_view_writes_partial",
    "Props.C88_view_done",
    "Props.C88_overwrites"
   ],
   "note": "Everything about opening, usage, files and status is complete for what the code does. False of the code: `send` without its second argument opens the device before it shows the usage (C88_fails), so that nothing is opened when an argument is missing holds for the other commands only (C88_missing_partial); a failing Stat panics (status 2, in C88_refused). Recording and viewing or replaying under the conditions of C87 (C88_view_partial, C88_replay_partial), viewing also after a serve whose writes failed (C88_view_writes_partial); the trace does not say which table it belongs to (C88_fails_table). Flag parsing, usage texts and pauses are not modelled."
  },
  {
   "property": "C89",
   "status": "proved",
   "theorems": [
    "Props.C89_lines",
    "Props.C89_told_unique",
    "Props.C89_reads",
    "Props.C89_told",
    "Props.C89_load_iff",
    "Props.C89_direction",
    "Props.C89_overwritten",
    "Props.C89_fails",
    "Props.C89_refused_iff"
   ],
   "note": "Complete. C89_fails: recording over the file of a longer session can leave a file the viewer refuses (a consequence of C45). Which lines are accepted is C40."
  },
  {
   "property": "C90",
   "status": "partial",
   "theorems": [
    "Props.C90_sent",
    "Props.C90_wire_form_partial",
    "Props.C90_correct_iff",
    "Props.C90_unique",
    "Props.C90_fails"
   ],
   "note": "What is sent is characterised exactly, for all types and values (C90_sent). It is the wire form exactly for the values of C90_correct_iff; false of the code for others (C90_fails): a count or length over 255 wraps, the texts of display-remote track infos are left out instead of refused."
  },
  {
   "property": "C91",
   "status": "partial",
   "theorems": [
    "Props.C91_depends",
    "Props.C91_depends_reports",
    "Props.C91_device",
    "Props.C91_afresh_partial",
    "Props.C91_afresh_iff",
    "Props.C91_fails"
   ],
   "note": "What the answers depend on is proved for every device (C91_depends, C91_device). A new identification is served as by a fresh iPod exactly if the UI mode is standard (C91_afresh_iff; C91_afresh_partial for any device). False of the code: StartIDPS does not leave the remote UI mode (C91_fails)."
  },
  {
   "property": "C92",
   "status": "partial",
   "theorems": [
    "Props.C92_state",
    "Props.C92_same_partial",
    "Props.C92_split_iff",
    "Props.C92_steady",
    "Props.C92_fails"
   ],
   "note": "State, number of answers and panics never depend on the grouping (C92_state), nor do the bytes if no packet after the first changes the transaction mode (C92_same_partial, C92_steady); exactly when a split matters is C92_split_iff. False of the code otherwise (C92_fails): all answers to a frame are encoded in the mode its last packet leaves."
  },
  {
   "property": "C93",
   "status": "partial",
   "theorems": [
    "Props.C93_answers",
    "Props.C93_frame",
    "Props.C93_session",
    "Props.C93_kept_frame",
    "Props.C93_kept_session",
    "Props.C93_fails"
   ],
   "note": "Answers per command for any device (C93_answers), bytes sent (C93_frame, C93_session) and growth (C93_kept_frame, C93_kept_session). The fixed bound is false of the code (C93_fails): repeated certificate sections other than the first and repeated token lists are appended without limit."
  },
  {
   "property": "C94",
   "status": "partial",
   "theorems": [
    "Props.C94_count",
    "Props.C94_loss_partial",
    "Props.C94_exact_iff",
    "Props.C94_truncated",
    "Props.C94_glued",
    "Props.C94_fails"
   ],
   "note": "Holds just if of every incomplete frame the last report is among the lost ones (C94_loss_partial, C94_exact_iff); the number of frames delivered is that of the ends that arrived (C94_count). Otherwise what arrived is delivered as a frame (C94_truncated), or parts of two frames as one (C94_glued); C94_fails: the loss of one report of a correct frame can end the server."
  },
  {
   "property": "C95",
   "status": "partial",
   "theorems": [
    "Props.C95_survives",
    "Props.C95_answers_iff",
    "Props.C95_stack_partial",
    "Props.C95_dialogue_unique",
    "Props.C95_fails"
   ],
   "note": "Proved for requests the library can carry (fixed-size messages but ACKDataDropped, variable-size messages whose codecs agree, with a transaction while transactions are on, packet of 1..65535 bytes but not 256) whose answers can be read: C95_answers_iff says exactly which requests have unreadable answers (unsendable ones, display track texts, extended track infos other than 0, 3, 4), C95_fails shows one; also excluded are token lists whose acknowledgement has 256 bytes (C80)."
  },
  {
   "property": "C96",
   "status": "partial",
   "theorems": [
    "Props.C96_state_iff",
    "Props.C96_answers_iff",
    "Props.C96_frame_partial",
    "Props.C96_fails"
   ],
   "note": "C96_state_iff and C96_answers_iff say exactly which requests are repeatable: not tokens, sections of a certificate after the first, the last section and the end of the identification (state), and not changes of the UI mode, the last section, the end of the identification and the question for the time once it has passed (answers). C96_frame_partial is the claim at the level of frames for the others. C96_fails: a section of a certificate sent again is in the certificate twice, and acknowledged both times."
  },
  {
   "property": "C97",
   "status": "partial",
   "theorems": [
    "Props.C97_current",
    "Props.C97_decoder",
    "Props.C97_survived",
    "Props.C97_panics_iff",
    "Props.C97_same_partial",
    "Props.C97_acknowledged",
    "Props.C97_ack_panics",
    "Props.C97_witness",
    "Props.C97_witness_unknown",
    "Props.C97_fails"
   ],
   "note": "C97_current: the current build is the one of all other properties. C97_decoder, C97_panics_iff: the older one differs exactly on tokens of unknown kind, where it panics. C97_survived, C97_same_partial: otherwise sessions are the same. C97_fails: one frame that kills the server of the older build and not the current one."
  },
  {
   "property": "C98",
   "status": "partial",
   "theorems": [
    "Props.C98_file",
    "Props.C98_trace",
    "Props.C98_prefix",
    "Props.C98_independent",
    "Props.C98_complete_partial",
    "Props.C98_server",
    "Props.C98_crashed_iff",
    "Props.C98_no_success",
    "Props.C98_ends_iff",
    "Props.C98_fails"
   ],
   "note": "C98_prefix (order), C98_trace (the theorems of C77 apply) and C98_server (the server in it is the one of serve) hold always; C98_independent and C98_complete_partial as long as the server does not crash the process, C98_crashed_iff says when. C98_fails: six bytes from the device stop the sending. C98_file: what is in the trace file at any time. C98_no_success, C98_ends_iff: the command never ends with status 0."
  },
  {
   "property": "C99",
   "status": "proved",
   "theorems": [
    "Props.C99_decoded",
    "Props.C99_unknown",
    "Props.C99_sent",
    "Props.C99_refused",
    "Props.C99_order",
    "Props.C99_all"
   ],
   "note": "C99_decoded, C99_unknown (packets), C99_sent, C99_refused (messages), C99_order, C99_all."
  },
  {
   "property": "C100",
   "status": "proved",
   "theorems": [
    "Props.C100_exact",
    "Props.C100_reordered",
    "Props.C100_two_bits",
    "Props.C100_lost",
    "Props.C100_lost_before_packet",
    "Props.C100_inserted"
   ],
   "note": "C100_exact; C100_reordered, C100_two_bits, C100_lost, C100_lost_before_packet, C100_inserted follow from it."
  },
  {
   "property": "C101",
   "status": "proved",
   "theorems": [
    "Props.C101_repeated",
    "Props.C101_exact_iff"
   ],
   "note": "C101_repeated gives the exact frames, C101_exact_iff the condition."
  },
  {
   "property": "C102",
   "status": "partial",
   "theorems": [
    "Props.C102_fixed_iff",
    "Props.C102_unambiguous_partial",
    "Props.C102_fails"
   ],
   "note": "Messages of fixed size: exact (C102_fixed_iff). Messages with codecs of their own: those the receiver can take back, both senders in the same mode (C102_unambiguous_partial). False of the code otherwise (C102_fails): the texts of display-remote track infos are not sent, and a name sent with transactions has the bytes of another sent without."
  },
  {
   "property": "C103",
   "status": "proved",
   "theorems": [
    "Props.C103_texts",
    "Props.C103_agrees",
    "Props.C103_bare_iff",
    "Props.C103_unknown_id",
    "Props.C103_send_texts",
    "Props.C103_send_agrees"
   ],
   "note": "The wording of encoding/binary for values without fixed size varies between Go releases and is a parameter. Two oddities are in the exact characterisation: a missing transaction gives a bare error (C103_bare_iff), and a known acknowledgement of an unexpected length is called an unknown command."
  },
  {
   "property": "C104",
   "status": "proved",
   "theorems": [
    "Props.C104_write_same",
    "Props.C104_write",
    "Props.C104_report",
    "Props.C104_same",
    "Props.C104_log",
    "Props.C104_serve",
    "Props.C104_serve_same",
    "Props.C104_view",
    "Props.C104_fatal",
    "Props.C104_printed",
    "Props.C104_always",
    "Props.C104_printable",
    "Props.C104_frame",
    "Props.C104_frames",
    "Props.C104_frames_same",
    "Props.C104_direction",
    "Props.C104_direction_agrees",
    "Props.C104_line_agrees",
    "Props.C104_line",
    "Props.C104_marshal",
    "Props.C104_marshal_agrees",
    "Props.C104_tells",
    "Props.C104_load",
    "Props.C104_load_same",
    "Props.C104_reads",
    "Props.C104_reads_same"
   ],
   "note": "Texts of the operating system's errors come with the device's answers; those of encoding/binary are a parameter (as in C103). The texts are a layer over the models of C33, C75, C82, C83; C104_frames_same, C104_reads_same, C104_load_same, C104_write_same, C104_same and C104_serve_same say that nothing else changes."
  },
  {
   "property": "C105",
   "status": "proved",
   "theorems": [
    "Props.C105_begins",
    "Props.C105_one",
    "Props.C105_same"
   ],
   "note": "The texts of the operating system are a parameter; the help printed after a usage error is left out. C105_same relates it to the run of C88."
  },
  {
   "property": "C106",
   "status": "proved",
   "theorems": [
    "Props.C106_report",
    "Props.C106_short",
    "Props.C106_frame",
    "Props.C106_unknown",
    "Props.C106_never",
    "Props.C106_returns_iff",
    "Props.C106_grows",
    "Props.C106_same"
   ],
   "note": "Tables whose matching definition has a negative payload are excluded by Accepted (the decoder panics there)."
  },
  {
   "property": "C107",
   "status": "partial",
   "theorems": [
    "Props.C107_packet",
    "Props.C107_crashes_iff",
    "Props.C107_refused_iff",
    "Props.C107_returns_partial",
    "Props.C107_whole_partial",
    "Props.C107_fails",
    "Props.C107_same",
    "Props.C107_respond"
   ],
   "note": "Exact: C107_packet (what is sent), C107_crashes_iff, C107_refused_iff, C107_respond. False of the code (C107_fails): a nil info panics, the display remote leaves out an info without fixed size and sends the rest, messages whose MarshalBinary is a method of the pointer are refused by value. Proved for payloads without nil (C107_returns_partial) and outside the display remote (C107_whole_partial). Numbers, maps and the like as payload are not modelled."
  },
  {
   "property": "C108",
   "status": "partial",
   "theorems": [
    "Props.C108_writer_partial",
    "Props.C108_kept",
    "Props.C108_append_bytes",
    "Props.C108_store_payload",
    "Props.C108_append_payload",
    "Props.C108_report_read",
    "Props.C108_reports_overwritten",
    "Props.C108_decoder",
    "Props.C108_encoder",
    "Props.C108_fails"
   ],
   "note": "Proved: a caller that only looks, cuts, writes and asks for Bytes sees slices as values (C108_writer_partial, C108_kept); storing into a payload is harmless (C108_store_payload); reports handed to a writer have arrays of their own (C108_encoder); the decoder takes over the data of a report in time (C108_decoder). False of the code (C108_fails): appending to Bytes or to a payload overwrites packets, exactly as C108_append_bytes and C108_append_payload say; a report read is overwritten by the next (C108_reports_overwritten)."
  },
  {
   "property": "C109",
   "status": "partial",
   "theorems": [
    "Props.C109_answers",
    "Props.C109_crash",
    "Props.C109_numbers",
    "Props.C109_written",
    "Props.C109_certificates",
    "Props.C109_own_certificate_partial",
    "Props.C109_same_partial",
    "Props.C109_fails"
   ],
   "note": "Proved: the frames are those written to the accessory alone up to the numbers of the iPod's requests (C109_answers), crashes (C109_crash), the frames written to an accessory carry the answers computed for it (C109_written), how requests are numbered across accessories (C109_numbers), which certificates are handed over (C109_certificates); everything is as alone if the others neither start nor end an identification nor send certificates (C109_same_partial), the certificate is the accessory's own if no other sends a section meanwhile (C109_own_certificate_partial). False of the code in general (C109_fails): a section from another accessory gets into the certificate; another StartIDPS makes two requests to the same accessory carry the same number. Commands are handled one at a time: data races on the buffer are not modelled."
  },
  {
   "property": "C110",
   "status": "proved",
   "theorems": [
    "Props.C110_session",
    "Props.C110_crash",
    "Props.C110_start",
    "Props.C110_frame",
    "Props.C110_packet",
    "Props.C110_lengths",
    "Props.C110_written",
    "Props.C110_memory"
   ],
   "note": "C110_session (the bytes written and the state left, both directions), C110_crash, C110_start (from the start of the process), C110_packet (one packet), C110_memory (nothing else is remembered), C110_written with C110_lengths and C110_frame (what can be on the wire; an acknowledgement of tokens of exactly 256 bytes is framed with the length byte 0, as the specified iPod does it too: C01_fails_at_256). The device is the one of cmd/ipod."
  },
  {
   "property": "C111",
   "status": "proved",
   "theorems": [
    "Props.C111_session",
    "Props.C111_exact",
    "Props.C111_trace",
    "Props.C111_state",
    "Props.C111_dies"
   ],
   "note": "C111_session (all operations on the device; or the crash on a frame that announces too much, and all before it), C111_exact (without such frames, for every growth of buffers), C111_trace (the file of -w), C111_state (state, end, crash), C111_dies (the deadly packets). Whether a frame that announces too much crashes the server or is skipped depends on the memory behind it (C54, C06). The packets are those of C110."
  },
  {
   "property": "C112",
   "status": "proved",
   "theorems": [
    "Props.C112_tell_apart",
    "Props.C112_reachable",
    "Props.C112_as_new"
   ],
   "note": "C112_tell_apart (iff), C112_reachable (iff), C112_as_new. That StartIDPS alone does not suffice for a fresh start is C91. The number of the last request can be found out also while transactions are off, because answers are written in the mode the frame ends with (C55)."
  },
  {
   "property": "C113",
   "status": "proved",
   "theorems": [
    "Props.C113_serve",
    "Props.C113_replay",
    "Props.C113_ends",
    "Props.C113_spins",
    "Props.C113_send"
   ],
   "note": "C113_replay, C113_serve: status and frames are those of the specified gadget (Gadget.plays) on the reads the text stands for (fileReadsN), or the process crashed and one of the reads makes up a frame in which a packet announces more than the frame has. C113_ends, C113_spins: when it ends and when never. C113_send: what send hands to the device."
  },
  {
   "property": "C114",
   "status": "proved",
   "theorems": [
    "Props.C114_view",
    "Props.C114_exact",
    "Props.C114_in_order",
    "Props.C114_all"
   ],
   "note": "C114_view, C114_exact: status, frames and commands. C114_in_order, C114_all: the frames of each direction."
  },
  {
   "property": "C115",
   "status": "proved",
   "theorems": [
    "Props.C115_general",
    "Props.C115_general_unfinished",
    "Props.C115_unfinished",
    "Props.C115_display",
    "Props.C115_extended",
    "Props.C115_audio",
    "Props.C115_start",
    "Props.C115_plain",
    "Props.C115_packet"
   ],
   "note": "C115_general: exactly the listed courses; C115_general_unfinished, C115_unfinished: calls that do not come back. C115_display, C115_extended, C115_audio, C115_start, C115_packet: the others. C115_plain: agreement with Model/Handlers.lean."
  },
  {
   "property": "C116",
   "status": "proved",
   "theorems": [
    "Props.C116_serves",
    "Props.C116_ops",
    "Props.C116_refused",
    "Props.C116_end",
    "Props.C116_crash",
    "Props.C116_so_far"
   ],
   "note": "C116_serves: the sequence; C116_ops: the operations are those of session (C95, C104); C116_refused, C116_end: what the log says about writes and the end (for a device whose own lines are messages only, which deviceLines_plain shows of the emulated iPod); C116_crash: the last lines of a crash; C116_so_far: nothing depends on what is read later."
  },
  {
   "property": "C117",
   "status": "proved",
   "theorems": [
    "Props.C117_arriving",
    "Props.C117_exact_iff",
    "Props.C117_unnoticed",
    "Props.C117_fails"
   ],
   "note": "C117_arriving: what is delivered of any reports; C117_exact_iff: when frames in shuffled order are delivered as sent; C117_unnoticed: the packet of a frame whose middle reports change places is accepted (first report of at least 4 bytes of data, payload lengths WritePacket can write); C117_fails: a concrete packet of which the reader returns another payload."
  },
  {
   "property": "C118",
   "status": "proved",
   "theorems": [
    "Props.C118_count",
    "Props.C118_fewest_iff",
    "Props.C118_tables",
    "Props.C118_not_least"
   ],
   "note": "C118_count, C118_fewest_iff (for which tables no frame could be carried by fewer), C118_tables, C118_not_least (bytes)."
  },
  {
   "property": "C119",
   "status": "proved",
   "theorems": [
    "Props.C119_orders_iff",
    "Props.C119_no_panic",
    "Props.C119_panic_iff",
    "Props.C119_received",
    "Props.C119_intact_iff",
    "Props.C119_fails"
   ],
   "note": "C119_orders_iff: the possible orders of the reports; C119_received: what the other side is given; C119_intact_iff: when that is what was written; C119_no_panic, and C119_panic_iff for any table; C119_fails: a packet nobody wrote. A call of WriteReport is one step, and it succeeds."
  },
  {
   "property": "C120",
   "status": "partial",
   "theorems": [
    "Props.C120_cut",
    "Props.C120_frames",
    "Props.C120_packet",
    "Props.C120_server_partial",
    "Props.C120_served_partial",
    "Props.C120_fails"
   ],
   "note": "Violated by the code in three ways, each with a witness (C120_fails): a packet inside the payload of a packet that lost a report is answered; a lost last and a lost first report make a third packet; the server panics at a frame shorter than its packet. Proved: for frames cut as the encoder cuts them (C120_cut) or an accessory may, with no start byte inside the packets and, of each, the first report or none arriving, exactly those frames are delivered whose last report arrives (C120_frames); an incomplete one is never read as a packet, and panics iff the memory behind the frame ends too early or completes the checksum (C120_packet); so the server panics for that reason or acts on the whole packets only (C120_server_partial, C120_served_partial)."
  },
  {
   "property": "C121",
   "status": "partial",
   "theorems": [
    "Props.C121_line",
    "Props.C121_converted_partial",
    "Props.C121_fails"
   ],
   "note": "Violated by the code: the script writes no space after the sign, and UnmarshalText skips the two bytes before the digits, so of an entry whose first digit follows the bracket it drops that digit; every log with such a line is refused (C121_fails, for all logs). Proved: exactly what becomes of any line (C121_line), and that with a space after the bracket the converted log is loaded as the frames told of (C121_converted_partial)."
  },
  {
   "property": "C122",
   "status": "partial",
   "theorems": [
    "Props.C122_read",
    "Props.C122_unread",
    "Props.C122_server_partial",
    "Props.C122_frames",
    "Props.C122_served_partial",
    "Props.C122_fails"
   ],
   "note": "Violated by the code, by one byte of damage already (C122_fails): with the length byte replaced by 0 the next bytes are taken for the length and a command is answered that no packet carries; with a larger one the server panics (the length is not checked against the frame); with a payload byte replaced by the start byte the payload is searched for packets after the checksum failed. Proved: exactly what is read from a damaged packet by the length it now says (C122_read), nothing if the length is untouched or the start byte is not (C122_unread), every one-byte change is covered (hit_damaged), and for sessions, from reports on, that unless the server panics at a packet that became longer, damaged packets leave no trace if none became shorter (C122_server_partial, C122_served_partial)."
  },
  {
   "property": "C123",
   "status": "partial",
   "theorems": [
    "Props.C123_recovers_partial",
    "Props.C123_alike",
    "Props.C123_packets_partial",
    "Props.C123_handshake_partial",
    "Props.C123_fails"
   ],
   "note": "Violated by the code (C123_fails): a packet that goes beyond the end of its frame is checked against what earlier frames left in memory, and if that happens to complete the checksum the server panics, where on a new connection it ignores the frame. Proved for all frames whose packets can be told from the frame alone, among them all frames the library writes (C123_recovers_partial, C123_packets_partial, C123_handshake_partial); and for all frames that unless one of the two crashes both do the same (C123_alike)."
  },
  {
   "property": "C124",
   "status": "proved",
   "theorems": [
    "Props.C124_iff",
    "Props.C124_alone",
    "Props.C124_calls",
    "Props.C124_no_panic",
    "Props.C124_ends"
   ],
   "note": "A call of WriteReport is one step; the report writer's own synchronisation is not part of the library. C124_iff is exact for all tables, C124_alone and C124_calls are its reading for one goroutine and one call. C124_ends gives the turns that are enough: per frame its length plus two. What the reports taken amount to at the other side: C94, C119."
  },
  {
   "property": "C125",
   "status": "proved",
   "theorems": [
    "Props.C125_received",
    "Props.C125_insisted",
    "Props.C125_both_sides"
   ],
   "note": "The lock is the callers', there is none in the library (without one: C119). A report that is refused though it went out (a device that takes the data and then reports an error) may make a frame arrive whose call failed, and twice if it is repeated; an example shows it."
  },
  {
   "property": "C126",
   "status": "proved",
   "theorems": [
    "Props.C126_exclusion",
    "Props.C126_glued",
    "Props.C126_finer",
    "Props.C126_one",
    "Props.C126_exclusion_order",
    "Props.C126_made_of",
    "Props.C126_no_panic",
    "Props.C126_frames",
    "Props.C126_whole_iff",
    "Props.C126_single",
    "Props.C126_lock",
    "Props.C126_ends",
    "Props.C126_alone",
    "Props.C126_truncated",
    "Props.C126_lock_any"
   ],
   "note": "In Model/Readers a round of the loop (reading a report and putting its data into the buffer) is one step; C126_exclusion and C126_glued are about Model/Racers, where each statement is one (races inside a method of bytes.Buffer are not modelled). C126_finer ties the two models together. What a call returns is what the buffer holds at that moment (how long the bytes stay valid: C108). C126_alone ties the steps to the model of ReadFrame used everywhere else."
  },
  {
   "property": "C127",
   "status": "proved",
   "theorems": [
    "Props.C127_own",
    "Props.C127_any",
    "Props.C127_whole_iff",
    "Props.C127_single"
   ],
   "note": "A read of the device gives one report, as the gadget driver does; a round of the loop of ReadFrame is one step. With one decoder shared by goroutines: C126."
  }
 ]
}