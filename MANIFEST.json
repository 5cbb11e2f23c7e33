{
 "claims": [
  {
   "property": "C01",
   "status": "proved",
   "theorems": [
    "Verif.C01_recorded_messages_follow_rules"
   ],
   "note": "Invariant over every reachable state; rules as declared by the user."
  },
  {
   "property": "C02",
   "status": "proved",
   "theorems": [
    "Verif.C02_refused_call_keeps_histories"
   ],
   "note": "For every state and call, not only reachable ones."
  },
  {
   "property": "C03",
   "status": "proved",
   "theorems": [
    "Verif.C03_own_messages_numbered"
   ],
   "note": ""
  },
  {
   "property": "C04",
   "status": "partial",
   "theorems": [
    "Verif.C04_numbering_partial",
    "Verif.C04_counterexample",
    "Verif.C04_counterexample_sign",
    "Verif.C04_in_order_message_never_accepted"
   ],
   "note": "The claim is false as stated: the id expected from the counterparty continues from the last message in either direction. The exact law is proved, with the case in which the claim does hold, and counterexamples."
  },
  {
   "property": "C05",
   "status": "partial",
   "theorems": [
    "Verif.C05_create_never_crashes_partial",
    "Verif.C05_update_crash_partial",
    "Verif.C05_reply_crash_partial",
    "Verif.C05_counterexample"
   ],
   "note": "False as stated (an accepted exchange leads to an index out of range). Proved, for executions in which Reply is not used on a dialogue dropped while its reference was incomplete: opening never crashes, and every crash of Update or Reply needs a gap in the counterparty's numbering."
  },
  {
   "property": "C06",
   "status": "partial",
   "theorems": [
    "Verif.C06_update_target_partial",
    "Verif.C06_reply_target_partial",
    "Verif.C06_counterexample",
    "Verif.C06_counterexample_ambiguous"
   ],
   "note": "False as stated. Proved: the target is identified when it points to the agent's own messages, and in general when the counterparty's ids are consecutive."
  },
  {
   "property": "C07",
   "status": "proved",
   "theorems": [
    "Verif.C07_other_counterparties_untouched",
    "Verif.C07_any_call",
    "Verif.C07_other_references_untouched"
   ],
   "note": ""
  },
  {
   "property": "C08",
   "status": "proved",
   "theorems": [
    "Verif.C08_no_second_opening"
   ],
   "note": "Assumes the agent's random source does not fail, that is, no reference drawn is empty."
  },
  {
   "property": "C09",
   "status": "proved",
   "theorems": [
    "Verif.C09_reference_immutable"
   ],
   "note": ""
  },
  {
   "property": "C10",
   "status": "partial",
   "theorems": [
    "Verif.C10_lookup_by_label",
    "Verif.C10_index_agrees_partial",
    "Verif.C10_counterexample"
   ],
   "note": "Look-up by label proved for all executions. The per-counterparty index agrees for executions that do not reply on dialogues already dropped from the store; otherwise false, with counterexample."
  },
  {
   "property": "C11",
   "status": "proved",
   "theorems": [
    "Verif.C11_partition",
    "Verif.C11_terminal_update",
    "Verif.C11_terminal_reply",
    "Verif.C11_terminal_create",
    "Verif.C11_terminal_create_with"
   ],
   "note": "All four calls that can accept a message. Replying on a dialogue that is not in the store does not put it back."
  },
  {
   "property": "C12",
   "status": "partial",
   "theorems": [
    "Verif.C12_rejected_opening_invisible_partial",
    "Verif.C12_reference_burned",
    "Verif.C12_failed_create_leaves_dialogue",
    "Verif.C12_every_ignored_create_leaves_dialogue"
   ],
   "note": "False as stated: a rejected opening message makes its reference unusable and a refused Create leaves an empty dialogue behind. Proved, with the same restriction on Reply as C10: a rejected opening message leaves every existing dialogue, look-up, list and terminal report unchanged."
  },
  {
   "property": "C13",
   "status": "proved",
   "theorems": [
    "Verif.C13_text_round_trip",
    "Verif.C13_text_unambiguous"
   ],
   "note": ""
  },
  {
   "property": "C14",
   "status": "partial",
   "theorems": [
    "Verif.DialogueLabel.C14_round_trip_partial",
    "Verif.DialogueLabel.C14_round_trip_iff",
    "Verif.DialogueLabel.C14_counterexample"
   ],
   "note": "False as stated: the encoder does not escape the components, so a quote injects fields and a backslash, control character or invalid UTF-8 changes or breaks the label. Proved for every order of fields: the label survives if all components are plain text, and among labels without quotes only then. encoding/json is modelled from its published behaviour."
  },
  {
   "property": "C15",
   "status": "partial",
   "theorems": [
    "Verif.C15_message_survives_partial",
    "Verif.C15_message_survives_mod",
    "Verif.C15_packs_iff",
    "Verif.C15_ids_on_wire",
    "Verif.C15_narrowing_counterexample",
    "Verif.C15_body_roundtrip"
   ],
   "note": "False as stated: ids and targets are narrowed to 32 bits. Proved in the int32 range, with the exact effect outside it."
  },
  {
   "property": "C16",
   "status": "proved",
   "theorems": [
    "Verif.C16_reply_reaches_dialogue"
   ],
   "note": "Both stores may have any reachable contents before the exchange. Assumes the responder's random reference is not empty, and, if the opening performative is terminal for the opener, that the opener keeps terminal dialogues. No other call of the opener between opening and reply; C123_next_turn_partial allows them."
  },
  {
   "property": "C17",
   "status": "proved",
   "theorems": [
    "Verif.C17_sets_are_mathematical_sets"
   ],
   "note": "Any number of sets, any operations, any map iteration orders."
  },
  {
   "property": "C18",
   "status": "proved",
   "theorems": [
    "Verif.C18_acn_round_trip",
    "Verif.C18_acn_injective",
    "Verif.C18_acn_encodes_iff",
    "Verif.C18_record_round_trip"
   ],
   "note": "Encodings below 2^64 bytes. The protobuf library is modelled from its published wire format, its source is not in the repository."
  },
  {
   "property": "C19",
   "status": "proved",
   "theorems": [
    "Verif.C19_envelope_round_trip",
    "Verif.C19_envelope_encodes_iff"
   ],
   "note": "Encodings below 2^64 bytes."
  },
  {
   "property": "C20",
   "status": "partial",
   "theorems": [
    "Verif.C20_frames_partial",
    "Verif.C20_wire",
    "Verif.C20_short_read_effect",
    "Verif.C20_short_read_counterexample",
    "Verif.C20_empty_counterexample",
    "Verif.C20_stream_frame",
    "Verif.C20_stream_single_frame",
    "Verif.C20_stream_counterexample",
    "Verif.C20_lite_write_panics_iff",
    "Verif.C20_stream_result"
   ],
   "note": "False as stated: a segment that ends inside a size or inside data corrupts the frame and all that follow; the buffered reader of libp2p streams drops bytes that follow a frame; empty data is not sent. Proved for segmentations that keep sizes and data whole, and, for libp2p streams, for every segmentation of one frame."
  },
  {
   "property": "C21",
   "status": "partial",
   "theorems": [
    "Verif.C21_accepted_iff_partial",
    "Verif.C21_refused",
    "Verif.C21_counterexample",
    "Verif.C21_write_result",
    "Verif.C21_written"
   ],
   "note": "False as stated: the writer allows 2^31-1 bytes, the reader 3 MiB. Proved: accepted exactly up to 3 MiB."
  },
  {
   "property": "C22",
   "status": "proved",
   "theorems": [
    "Verif.C22_records_survive",
    "Verif.C22_save_succeeds",
    "Verif.C22_bad_key_blocks"
   ],
   "note": "For records that are non-empty, have valid text, fit 32 bits of size and carry a usable peer key."
  },
  {
   "property": "C23",
   "status": "partial",
   "theorems": [
    "Verif.C23_torn_append_partial",
    "Verif.C23_counterexample"
   ],
   "note": "False as stated: loading succeeds exactly if none or all of the bytes of the append reached the file."
  },
  {
   "property": "C24",
   "status": "proved",
   "theorems": [
    "Verif.C24_accept_iff",
    "Verif.C24_first_failure"
   ],
   "note": "Decision logic for every address function and signature check."
  },
  {
   "property": "C25",
   "status": "partial",
   "theorems": [
    "Verif.C25_panic_iff_partial",
    "Verif.C25_counterexample",
    "Verif.C25_short_signature_counterexample"
   ],
   "note": "False as stated: an ethereum record with a public key shorter than two characters, or a signature that decodes to fewer bytes than are indexed, crashes the peer. The exact panic condition is proved."
  },
  {
   "property": "C26",
   "status": "proved",
   "theorems": [
    "Verif.C26_sender_is_registered",
    "Verif.C26_own_envelopes_pass"
   ],
   "note": "Every script of reads and writes; the completeness half assumes well-formed frames and successful writes."
  },
  {
   "property": "C27",
   "status": "partial",
   "theorems": [
    "Verif.C27_record_proven_partial",
    "Verif.C27_sender_ignored",
    "Verif.C27_counterexample",
    "Verif.C27_crash_iff",
    "Verif.C27_refusals",
    "Verif.C27_answered"
   ],
   "note": "False as stated: the sender of the envelope is not compared with the record. Proved: an envelope is accepted exactly with a record proven for its own address and the remote peer. A message without record crashes the node."
  },
  {
   "property": "C28",
   "status": "partial",
   "theorems": [
    "Verif.C28_session_needed_partial",
    "Verif.C28_sender_local_partial",
    "Verif.C28_counterexample",
    "Verif.C28_delivered_counterexample"
   ],
   "note": "False as stated: the sender is never compared with the session. Proved: an envelope is taken for routing exactly from a well-formed request of a live session, and routed only if its sender is registered at this peer."
  },
  {
   "property": "C29",
   "status": "partial",
   "theorems": [
    "Verif.C29_bounded_fifo_partial",
    "Verif.C29_refused_iff",
    "Verif.C29_get_oldest",
    "Verif.C29_reregistration_empties",
    "Verif.C29_reregistration_counterexample",
    "Verif.C29_never_twice",
    "Verif.C29_at_most_once"
   ],
   "note": "False as stated only for an address that registers again while envelopes are pending: they are discarded. Proved since the last registration; and over whole histories what is given plus what waits is a subsequence of what was accepted."
  },
  {
   "property": "C30",
   "status": "proved",
   "theorems": [
    "Verif.C30_session_owner",
    "Verif.C30_opened_proven",
    "Verif.C30_unknown_refused",
    "Verif.C30_isolated",
    "Verif.C30_unregister_begin",
    "Verif.C30_unregister"
   ],
   "note": "Assumes that the random session identifiers never repeat."
  },
  {
   "property": "C31",
   "status": "partial",
   "theorems": [
    "Verif.C31_route_partial",
    "Verif.C31_at_most_one",
    "Verif.C31_queued_iff",
    "Verif.C31_retry_at_most_one",
    "Verif.C31_handle",
    "Verif.C31_handle_counterexample",
    "Verif.C31_closing_drops",
    "Verif.C31_handle_result",
    "Verif.C31_started_retries"
   ],
   "note": "Precedence, at-most-once and the exact condition for queueing are proved for RouteEnvelope. False as stated in two places: HandleAeaEnvelope prefers a delegate connection to the own agent, and a closing peer drops the envelope and reports success."
  },
  {
   "property": "C32",
   "status": "partial",
   "theorems": [
    "Verif.C32_route_partial",
    "Verif.C32_own_agent_forwards",
    "Verif.C32_counterexample",
    "Verif.clientHandleEnvelope_iff",
    "Verif.C32_sent_iff",
    "Verif.C32_success_iff"
   ],
   "note": "False as stated: an envelope to the own agent is given to it and then also sent to the network. When an envelope is sent and when success is reported is characterised exactly. Proved: at most once to the own agent and at most once to the network, to the proven peer only, and to the own agent only if it is the target."
  },
  {
   "property": "C33",
   "status": "partial",
   "theorems": [
    "Verif.C33_found_record_proven_partial",
    "Verif.C33_empty_success_iff",
    "Verif.C33_counterexample"
   ],
   "note": "False as stated: a look-up in which no provider helps reports success with an empty peer, exactly if the stream to the last provider could be opened. Proved whenever a record is returned."
  },
  {
   "property": "C34",
   "status": "partial",
   "theorems": [
    "Verif.C34_kth_status",
    "Verif.C34_own_status_iff",
    "Verif.C34_sequential_partial",
    "Verif.C34_timeout_counterexample",
    "Verif.C34_concurrent_counterexample"
   ],
   "note": "False as stated: a status carries no reference to an envelope. The exact law is proved (the k-th wait gets the k-th status), with the condition under which the status is the envelope's own."
  },
  {
   "property": "C35",
   "status": "partial",
   "theorems": [
    "Verif.C35_order_partial",
    "Verif.C35_discard_iff",
    "Verif.C35_race_counterexample",
    "Verif.C35_lost_counterexample",
    "Verif.C35_retry_counterexample"
   ],
   "note": "False as stated: two connections that race for a queue reorder or lose envelopes, and the retry queue lets later envelopes overtake. Proved: if no two connections use one queue, RouteEnvelope is called in sending order."
  },
  {
   "property": "C36",
   "status": "partial",
   "theorems": [
    "Verif.C36_table",
    "Verif.C36_latest_connection_partial",
    "Verif.C36_counterexample",
    "Verif.C36_counterexample_handlers"
   ],
   "note": "False as stated: the end of an older connection removes the newer one from the table. The exact law of the table is proved for every interleaving."
  },
  {
   "property": "C37",
   "status": "partial",
   "theorems": [
    "Verif.C37_success_provided_partial",
    "Verif.C37_never_retried",
    "Verif.C37_counterexample"
   ],
   "note": "False as stated: a failed announcement is never retried and the next call reports success, a time-out is reported as success, and so is a call while another is in progress. Proved outside these cases, for every interleaving of calls."
  },
  {
   "property": "C38",
   "status": "partial",
   "theorems": [
    "Verif.C38_route_balance_partial",
    "Verif.C38_retry_balance",
    "Verif.C38_counterexample"
   ],
   "note": "False as stated. The exact change of the gauge is proved for every path."
  },
  {
   "property": "C39",
   "status": "partial",
   "theorems": [
    "Verif.C39_returns_iff_partial",
    "Verif.C39_never_returns",
    "Verif.C39_counterexample",
    "Verif.C39_attempts_bounded",
    "Verif.C39_bootstrap_iff"
   ],
   "note": "False as stated: after the time-out the loops run for ever without trying. The exact condition for returning, and the bound on the attempts, are proved."
  },
  {
   "property": "C40",
   "status": "partial",
   "theorems": [
    "Verif.C40_tries",
    "Verif.C40_total_wait",
    "Verif.C40_backoff_partial",
    "Verif.C40_exponent_small",
    "Verif.C40_jitter_in_range",
    "Verif.C40_combine_in_range",
    "Verif.C40_overflow_counterexample",
    "Verif.C40_float"
   ],
   "note": "Tries, reported error and the delays of the client are proved in full. The back-off for arbitrary delays is proved when the floating-point exponent is at most 62 (all delays below 2^62 ns); for the largest delays it overflows. The logarithm is a parameter, exact on powers of two and possibly rounded up elsewhere."
  },
  {
   "property": "C41",
   "status": "partial",
   "theorems": [
    "Verif.C41_get_partial",
    "Verif.C41_prefix_partial",
    "Verif.C41_counterexample",
    "Verif.C41_statuses"
   ],
   "note": "Proved in full until Disconnect is called. During Disconnect an envelope that could not be decoded can be returned as far as it was decoded; proved there if that does not happen."
  },
  {
   "property": "C42",
   "status": "partial",
   "theorems": [
    "Verif.C42_never_finishes",
    "Verif.C42_counterexample",
    "Verif.C42_finishes_iff_partial",
    "Verif.C42_crash_on_full_queue"
   ],
   "note": "False as stated: the goroutine reads for ever. The exact condition for finishing is proved."
  },
  {
   "property": "C43",
   "status": "partial",
   "theorems": [
    "Verif.C43_round_trip_iff_partial",
    "Verif.C43_strict_der_partial",
    "Verif.C43_der_unique_partial",
    "Verif.C43_counterexample",
    "Verif.C43_curve_order"
   ],
   "note": "False as stated: the text form is split in the middle, so the numbers survive exactly if the second has as many bytes as the first or one more. btcec is modelled from its published behaviour, its source is not in the repository."
  },
  {
   "property": "C44",
   "status": "proved",
   "theorems": [
    "Verif.C44_case_only",
    "Verif.C44_injective"
   ],
   "note": "Every hash function with 32-byte results, every address up to 32 bytes."
  },
  {
   "property": "C45",
   "status": "partial",
   "theorems": [
    "Verif.C45_init_iff",
    "Verif.C45_settings",
    "Verif.C45_pipes",
    "Verif.C45_ports_partial",
    "Verif.C45_port_law",
    "Verif.C45_counterexample",
    "Verif.C45_ipv6_counterexample"
   ],
   "note": "False for ports: a port that is no number in range is replaced by 0 or 65535 without error. Proved for well-formed URIs, with the exact law for the rest; the part on pipes is proved in full."
  },
  {
   "property": "C46",
   "status": "partial",
   "theorems": [
    "Verif.C46_own_envelopes",
    "Verif.C46_sender",
    "Verif.C46_statuses",
    "Verif.C46_closing",
    "Verif.C46_room",
    "Verif.C46_loop_ends_iff_partial",
    "Verif.C46_crash_counterexample"
   ],
   "note": "The part on envelopes is proved in full. False for the end of the loop: it also ends after Stop, and a status message without status, or an agent without record, crashes the node. The exact condition is proved."
  },
  {
   "property": "C47",
   "status": "proved",
   "theorems": [
    "Verif.FileHistogram.C47_counts",
    "Verif.FileHistogram.C47_exact"
   ],
   "note": "Every ordering of the numbers, so also for not-a-number. The counts have 64 bits: exact below 2^64 observations, modulo 2^64 for all."
  },
  {
   "property": "C48",
   "status": "partial",
   "theorems": [
    "Verif.C48_undecodable_answered_partial",
    "Verif.C48_unexpected_answered_partial",
    "Verif.C48_bad_envelope_answered_partial",
    "Verif.C48_read_error",
    "Verif.C48_panic_iff_partial",
    "Verif.C48_crash_counterexample",
    "Verif.C48_unanswered_counterexample"
   ],
   "note": "False as stated: a status without body crashes two readers, and a status where an envelope is expected gets no answer. Everything else is proved, with the exact crash condition. Error texts are assumed to be valid UTF-8."
  },
  {
   "property": "C49",
   "status": "proved",
   "theorems": [
    "Verif.C49_init_iff",
    "Verif.C49_never_panics"
   ],
   "note": "Key derivation is a parameter."
  },
  {
   "property": "C50",
   "status": "proved",
   "theorems": [
    "Verif.C50_error_iff",
    "Verif.C50_which_error"
   ],
   "note": "Every order in which the connections come back. All peers have to come into the table, so one unreachable peer can make the call fail. What Connect and the routing table answer are parameters."
  },
  {
   "property": "C51",
   "status": "proved",
   "theorems": [
    "Verif.C51_unwrap_never_crashes",
    "Verif.C51_no_dialogue_refused"
   ],
   "note": "Assumes that an empty content has no populated field, true of every protobuf message."
  },
  {
   "property": "C52",
   "status": "proved",
   "theorems": [
    "Verif.C52_default_reply"
   ],
   "note": ""
  },
  {
   "property": "C53",
   "status": "proved",
   "theorems": [
    "Verif.C53_next_turn_iff",
    "Verif.C53_conversation_iff",
    "Verif.C53_same_history",
    "Verif.C53_alternating_stuck"
   ],
   "note": "The law is what the code enforces, not what one would want: see DESIGN.md, Disagreements. Assumes that the responder has not itself opened a dialogue with the opener under the same random reference, that the responder's random reference is not empty, and that an agent for which a performative of the conversation is terminal keeps terminal dialogues. Messages are not overtaken: each is delivered before the next is sent."
  },
  {
   "property": "C54",
   "status": "proved",
   "theorems": [
    "Verif.C54_acn_concat",
    "Verif.C54_envelope_concat",
    "Verif.C54_dialogue_concat",
    "Verif.C54_acn_unknown_ignored",
    "Verif.C54_envelope_unknown_ignored",
    "Verif.C54_record_unknown_ignored",
    "Verif.C54_extended_registration"
   ],
   "note": "Encodings below 2^64 bytes. The protobuf library is modelled from its published wire format."
  },
  {
   "property": "C55",
   "status": "proved",
   "theorems": [
    "Verif.C55_status_codes",
    "Verif.C55_registration_agreed",
    "Verif.C55_registration_refusal_agreed",
    "Verif.C55_registration_reliable",
    "Verif.C55_lookup_agreed",
    "Verif.C55_lookup_refusal_agreed",
    "Verif.C55_envelope_agreed",
    "Verif.C55_client_envelope_agreed",
    "Verif.C55_no_crash",
    "Verif.ExchangeDemo.one_sided"
   ],
   "note": "Agreement goes from the asking side to the answering side; ExchangeDemo.one_sided shows that the converse is false when the connection breaks. Registration: the answer may arrive although writing it reported an error (stated in the conclusion). Frames below 2^64 bytes."
  },
  {
   "property": "C56",
   "status": "proved",
   "theorems": [
    "Verif.C56_acn_passed_on",
    "Verif.C56_acn_text",
    "Verif.C56_envelope_passed_on",
    "Verif.C56_record_passed_on",
    "Verif.C56_contained_record_passed_on",
    "Verif.C56_dialogue_passed_on",
    "Verif.PassOnDemo.longer"
   ],
   "note": "Unknown fields are dropped by the model's encoder and kept by the library's; the theorem is about the known ones. Status messages can become longer (PassOnDemo.longer)."
  },
  {
   "property": "C57",
   "status": "proved",
   "theorems": [
    "Verif.C57_tables_proven",
    "Verif.C57_delegate_record",
    "Verif.C57_one_representative",
    "Verif.TablesDemo.mixed_up"
   ],
   "note": "For every check that implies the address and key comparisons, in particular the one of the code (isValidPoR_lawful). Announcements, retries and shutdown do not change the tables and are left out. Assumes that libp2p reports the peer id that belongs to the key. TablesDemo.mixed_up shows that the two tables of relay clients need not agree with each other."
  },
  {
   "property": "C58",
   "status": "proved",
   "theorems": [
    "Verif.C58_answer_proven",
    "Verif.C58_registered_answered",
    "Verif.C58_answer_used",
    "Verif.C58_client_answer",
    "Verif.C58_client_refuses"
   ],
   "note": "Both peers use the same check. The empty address is excluded from the completeness part. A record whose key is of another type than secp256k1 ends the look-up with an error (stated)."
  },
  {
   "property": "C59",
   "status": "partial",
   "theorems": [
    "Verif.C59_record_of_sender_partial",
    "Verif.C59_direct_sender_accepted_partial",
    "Verif.C59_counterexample",
    "Verif.C59_empty_sender_counterexample"
   ],
   "note": "False as stated: a relay registration replaces the record of a connected delegate, and an empty sender goes out without record. Proved: the record is always a valid one of the sender, it is accepted exactly if it is for this peer's key, and it is if the sender was never registered through a relay."
  },
  {
   "property": "C60",
   "status": "partial",
   "theorems": [
    "Verif.C60_restart_iff_partial",
    "Verif.C60_restart_restores",
    "Verif.C60_counterexample"
   ],
   "note": "False as stated: a relay client with a key of another type blocks every further start. The exact condition is proved, and that a start restores the relay table. Assumes that appends to the file succeed (C23 is about those that do not)."
  },
  {
   "property": "C61",
   "status": "proved",
   "theorems": [
    "Verif.C61_fetchai_signature",
    "Verif.C61_ethereum_signature",
    "Verif.C61_addresses",
    "Verif.C61_checksum",
    "Verif.C61_ledgers"
   ],
   "note": "Hashes, curves and encodings are parameters; the decoding around them is modelled."
  },
  {
   "property": "C62",
   "status": "partial",
   "theorems": [
    "Verif.C62_signature_accepted_partial",
    "Verif.C62_unbalanced_partial",
    "Verif.C62_wallet_proves_partial",
    "Verif.C62_agent_starts_iff_partial",
    "Verif.C62_started_accepted_partial",
    "Verif.C62_no_address",
    "Verif.C62_counterexample",
    "Verif.C62_unbalanced_counterexample",
    "Verif.C62_port_iff",
    "Verif.C62_connection_ends",
    "Verif.C62_agent_ends"
   ],
   "note": "False: without AEA_ADDRESS the agent starts but its record has no address and no peer accepts it; and a signature whose second number is short is refused. Proved: the exact condition for a start, the exact condition for being accepted, and acceptance of balanced signatures."
  },
  {
   "property": "C63",
   "status": "partial",
   "theorems": [
    "Verif.C63_label_agrees",
    "Verif.C63_initiator_partial",
    "Verif.C63_other_opened_partial",
    "Verif.C63_counterexample",
    "Verif.C63_failed_opening_counterexample"
   ],
   "note": "False for dialogues of an agent with itself and after an opening that failed. Proved for all other dialogues in every reachable state."
  },
  {
   "property": "C64",
   "status": "partial",
   "theorems": [
    "Verif.C64_connect_iff_partial",
    "Verif.C64_identity_partial",
    "Verif.C64_impersonation",
    "Verif.C64_honest_peer",
    "Verif.C64_first_bytes",
    "Verif.C64_panic_iff_partial",
    "Verif.C64_key_text_partial",
    "Verif.C64_counterexample"
   ],
   "note": "False: the check takes the key of the last certificate, but TLS proves possession of the first one, so anybody who has seen the peer's certificate and signature passes for it; a last certificate without ECDSA key crashes the agent. Proved for servers that send one certificate, with the exact condition for the rest."
  },
  {
   "property": "C65",
   "status": "partial",
   "theorems": [
    "Verif.C65_announced_partial",
    "Verif.C65_pending_partial",
    "Verif.C65_own_first",
    "Verif.C65_who_announces",
    "Verif.C65_counterexample",
    "Verif.C65_joining_counterexample",
    "Verif.C65_rows",
    "Verif.C65_rows_start"
   ],
   "note": "False for mailbox clients that register before the first notification, and for relay clients that register while the peer joins through an entry peer. Proved for delegate clients, and for relay clients of a peer without entry peers, in every interleaving."
  },
  {
   "property": "C66",
   "status": "partial",
   "theorems": [
    "Verif.C66_no_crash_partial",
    "Verif.C66_one_notification_partial",
    "Verif.C66_counterexample",
    "Verif.C66_starvation"
   ],
   "note": "False: a notification that begins just after the release of a waiting registration crashes the peer (WaitGroup reused), and notifications that overlap keep a registration waiting for ever. Proved: no crash if no notification begins in that moment, in particular with one notification."
  },
  {
   "property": "C67",
   "status": "partial",
   "theorems": [
    "Verif.C67_served_iff",
    "Verif.C67_all_served_partial",
    "Verif.C67_time_partial",
    "Verif.C67_one_stalls",
    "Verif.C67_counterexample"
   ],
   "note": "False: the handshake is done in the accept loop without a deadline, so one silent client keeps all later ones from the service for ever. Proved: the exact condition for being served, and the waiting time, if no client stalls."
  },
  {
   "property": "C68",
   "status": "partial",
   "theorems": [
    "Verif.C68_no_crash_partial",
    "Verif.C68_listed_partial",
    "Verif.C68_twice",
    "Verif.C68_open_connection",
    "Verif.C68_slow_queue",
    "Verif.C68_counterexample",
    "Verif.C68_crash_iff",
    "Verif.C68_slow_bound",
    "Verif.C68_slow_sent"
   ],
   "note": "False: a second Close, an open connection that is not in the table, a client with a message that is decrypted and not read (a TLS connection gives it after it was closed), a handler or a call of RouteEnvelope in the middle of something crash the process, since Close closes channels that are in use. Proved for every interleaving in which nobody is about to use the channels when they are closed."
  },
  {
   "property": "C69",
   "status": "partial",
   "theorems": [
    "Verif.C69_peer_iff",
    "Verif.C69_client_iff",
    "Verif.C69_agent",
    "Verif.C69_storage",
    "Verif.C69_delay_partial",
    "Verif.C69_delay_truncated",
    "Verif.C69_entry_peer_crash",
    "Verif.C69_counterexample",
    "Verif.C69_crash_iff",
    "Verif.C69_delay_all"
   ],
   "note": "False for delays, whose fraction of a second is dropped, and for entry peers that are no multiaddress, which crash the node. The rest is proved, with the exact conditions for a start."
  },
  {
   "property": "C70",
   "status": "partial",
   "theorems": [
    "Verif.RetryError.C70_text_crash_iff",
    "Verif.RetryError.C70_text",
    "Verif.RetryError.C70_report_partial",
    "Verif.RetryError.C70_counterexample"
   ],
   "note": "False: the error of each try overwrites the one before; the text names the last, as number 1. Proved: exactly that, for every behaviour of the node, and the text of any list of errors."
  },
  {
   "property": "C71",
   "status": "partial",
   "theorems": [
    "Verif.DelegateGauge.C71_gauge_partial",
    "Verif.DelegateGauge.C71_gauge_iff",
    "Verif.DelegateGauge.C71_clients",
    "Verif.DelegateGauge.C71_decided",
    "Verif.DelegateGauge.C71_counterexample"
   ],
   "note": "The counter is proved. The gauge is false: refused connections are subtracted without having been added; the exact value and condition are proved."
  },
  {
   "property": "C72",
   "status": "partial",
   "theorems": [
    "Verif.AgentSend.C72_order",
    "Verif.AgentSend.C72_crash_iff_partial",
    "Verif.AgentSend.C72_agent_there_partial",
    "Verif.AgentSend.C72_delivered_partial",
    "Verif.AgentSend.C72_alone",
    "Verif.AgentSend.C72_counterexample",
    "Verif.AgentSend.C72_lost",
    "Verif.AgentSend.C72_stop_twice",
    "Verif.C72_one_stop_returns",
    "Verif.C72_after_stop"
   ],
   "note": "Order is proved for every schedule, delivery as long as the agent is there. False after it has gone: the next envelope is sent to a closed channel and crashes the node."
  },
  {
   "property": "C73",
   "status": "proved",
   "theorems": [
    "Verif.Reconnect.C73_outcome",
    "Verif.Reconnect.C73_closed"
   ],
   "note": "Exact: the outcome and number of attempts for every course of events."
  },
  {
   "property": "C74",
   "status": "partial",
   "theorems": [
    "Verif.FileMonitor.C74_values_partial",
    "Verif.FileMonitor.C74_crash_iff",
    "Verif.FileMonitor.C74_look",
    "Verif.FileMonitor.C74_peer",
    "Verif.FileMonitor.C74_report",
    "Verif.FileMonitor.C74_counterexample",
    "Verif.FileMonitor.C74_crash_example",
    "Verif.MonitorFile.C74_stop_iff",
    "Verif.MonitorFile.C74_one_loop"
   ],
   "note": "Proved of the peer in every history, and in general if no metric is created twice; false of a metric created twice, of a use of an unknown metric and of Stop without Start, with the exact conditions."
  },
  {
   "property": "C75",
   "status": "partial",
   "theorems": [
    "Verif.Seller.C75_crash_iff_partial",
    "Verif.Seller.C75_counterexample"
   ],
   "note": "Exact: the agent crashes on a cfp or accept that neither opens a dialogue nor belongs to one, and on nothing else; so the property is false, and anyone can crash it in any state. That the dialogue library itself never panics here is proved."
  },
  {
   "property": "C76",
   "status": "partial",
   "theorems": [
    "Verif.Seller.C76_sent",
    "Verif.Seller.C76_dialogues",
    "Verif.Seller.C76_complete_partial",
    "Verif.Seller.C76_complete_counterexample",
    "Verif.Seller.C76_repeated_counterexample",
    "Verif.Seller.C76_name_counterexample"
   ],
   "note": "What is sent and what dialogues contain is proved in full. Completion implies a deal only if the end belongs to a dialogue; an end that belongs to none is reported complete."
  },
  {
   "property": "C77",
   "status": "partial",
   "theorems": [
    "Verif.Seller.C77_deal",
    "Verif.Seller.C77_unused",
    "Verif.Seller.C77_counterexample"
   ],
   "note": "The intended conversation is proved to succeed from every state and under any interference; after a counter-proposal, which the rules allow, the end is refused."
  },
  {
   "property": "C78",
   "status": "partial",
   "theorems": [
    "Verif.C78_handed_over",
    "Verif.C78_reported",
    "Verif.C78_carried",
    "Verif.C78_twice_counterexample",
    "Verif.C78_agent_counterexample",
    "Verif.C78_closing_counterexample"
   ],
   "note": "Success implies that the envelope was handed over, and over a whole stream the result is exact; an envelope whose answer is lost is handed over twice, a refusal by the own agent is reported as success, and a closing peer drops envelopes with success."
  },
  {
   "property": "C79",
   "status": "partial",
   "theorems": [
    "Verif.C79_in_order_partial",
    "Verif.C79_all_arrive",
    "Verif.C79_crossing",
    "Verif.C79_crossing_all",
    "Verif.C79_crossing_counterexample"
   ],
   "note": "Proved for envelopes that do not pass through the retry queue of the sender's peer, and with one connection per queue as in C35; retried envelopes may arrive twice (C78_twice_counterexample) and late (C35_retry_counterexample). That the calls at the second peer come in the order of those at the first is proved if no stream between the peers breaks (C79_crossing); if one breaks, it may fail."
  },
  {
   "property": "C80",
   "status": "partial",
   "theorems": [
    "Verif.C80_no_crash_partial",
    "Verif.C80_crash_iff_partial",
    "Verif.C80_listen_failed",
    "Verif.C80_serves",
    "Verif.C80_lookup_counterexample",
    "Verif.C80_exclusion_counterexample",
    "Verif.C80_listen_counterexample",
    "Verif.C80_stop_counterexample",
    "Verif.C80_stop"
   ],
   "note": "Proved exactly for the schedules in which the mutex is replaced while nobody is in a critical section, listening succeeds and stop is called when there is a server; false otherwise."
  },
  {
   "property": "C81",
   "status": "partial",
   "theorems": [
    "Verif.C81_peer_partial",
    "Verif.C81_client_partial",
    "Verif.C81_starts_iff",
    "Verif.C81_counterexample",
    "Verif.C81_notifies_each",
    "Verif.C81_first_failure"
   ],
   "note": "Proved what is left open for every failing action; it is nothing except if making the DHT, the certificate or the record file fails."
  },
  {
   "property": "C82",
   "status": "partial",
   "theorems": [
    "Verif.C82_loaded_partial",
    "Verif.C82_not_saved",
    "Verif.C82_skips",
    "Verif.C82_kept_partial",
    "Verif.C82_start_fails_counterexample",
    "Verif.C82_stale_counterexample",
    "Verif.C82_lost_counterexample"
   ],
   "note": "Holds of clients that register when the file has been loaded. Before it is open nothing is saved and stored records replace newer registrations; during loading an append makes the loader skip the rest of the file or fail."
  },
  {
   "property": "C83",
   "status": "partial",
   "theorems": [
    "Verif.C83_services_partial",
    "Verif.C83_own_counterexample",
    "Verif.C83_relay_counterexample",
    "Verif.C83_client_counterexample"
   ],
   "note": "Proved for delegate and mailbox clients; false of the own agent of a peer that joins a network, of relay clients and of the node that is a client."
  },
  {
   "property": "C84",
   "status": "partial",
   "theorems": [
    "Verif.C84_same_numbers",
    "Verif.C84_create_iff",
    "Verif.C84_one_peer",
    "Verif.C84_page",
    "Verif.C84_second_peer",
    "Verif.C84_counterexample",
    "Verif.C84_start_counterexample",
    "Verif.C84_create_names",
    "Verif.C84_peer_names"
   ],
   "note": "Proved for one peer in a process, which is what a node has; a second peer with Prometheus in the same process always crashes it. The Prometheus library is described by when it panics, not modelled."
  },
  {
   "property": "C85",
   "status": "proved",
   "theorems": [
    "Verif.C85_protocols",
    "Verif.C85_written_iff",
    "Verif.C85_round_trip",
    "Verif.C85_injective",
    "Verif.C85_limit_iff",
    "Verif.C85_limit_agrees",
    "Verif.C85_unlimited",
    "Verif.C85_passed_on",
    "Verif.C85_unknown_ignored",
    "Verif.C85_limit_counterexample",
    "Verif.C85_one_alternative",
    "Verif.C85_missing",
    "Verif.C85_number",
    "Verif.C85_other_type",
    "Verif.C85_number_alternative"
   ],
   "note": "Proved for every definition with distinct field numbers, and for the five of the project, for encodings below 2^64 bytes. The coder is that of google.golang.org/protobuf, modelled from its behaviour since its code is not in the repository. Whether the pinned version (v1.25.0) limits nesting could not be checked, since its code is not available here; the round trip is for a reader without a limit, C85_limit_iff says exactly what a limit changes, and C85_limit_counterexample gives for every limit a search that is written but not read."
  },
  {
   "property": "C86",
   "status": "proved",
   "theorems": [
    "Verif.C86_envelope_write",
    "Verif.C86_envelope_read",
    "Verif.C86_acn_write",
    "Verif.C86_acn_read",
    "Verif.C86_acn_unlimited",
    "Verif.C86_acn_limit_tight",
    "Verif.C86_message_limited",
    "Verif.C86_message_read",
    "Verif.C86_message_write",
    "Verif.C86_response",
    "Verif.C86_performative",
    "Verif.C86_proposal",
    "Verif.C86_match",
    "Verif.C86_status_codes"
   ],
   "note": "The functions of Messages, Wrap and Seller, which the other properties are about, are shown to be those of the definitions in Definitions. `structOkOf` is an instance of the parameter `structOk` of the properties about dialogues."
  },
  {
   "property": "C87",
   "status": "proved",
   "theorems": [
    "Verif.C87_label_iff",
    "Verif.C87_unambiguous",
    "Verif.C87_readable_iff"
   ],
   "note": "The grammar is written down independently in Spec/Json. encoding/json is modelled from its published behaviour; its limit of 10000 on nesting is left out."
  },
  {
   "property": "C88",
   "status": "partial",
   "theorems": [
    "Verif.C88_parse_iff",
    "Verif.C88_bytes_roundtrip",
    "Verif.C88_determined",
    "Verif.C88_text_roundtrip",
    "Verif.C88_id_iff",
    "Verif.C88_id_agrees",
    "Verif.C88_two_readers",
    "Verif.C88_ethereum",
    "Verif.C88_other_text_partial",
    "Verif.C88_loose_counterexample"
   ],
   "note": "The last part is false: other texts of the same key (capital letters, the long form) give the same identifier, but a proof of representation compares texts and refuses them; and a library version that does not check the size of a compressed coordinate gives one point two texts and two identifiers. All else is proved. The prime is proved prime by Lucas' test."
  },
  {
   "property": "C89",
   "status": "partial",
   "theorems": [
    "Verif.C89_verify_iff",
    "Verif.C89_public",
    "Verif.C89_private_exists",
    "Verif.C89_public_text",
    "Verif.C89_same_text",
    "Verif.C89_signed",
    "Verif.C89_malleable",
    "Verif.C89_der",
    "Verif.C89_libp2p",
    "Verif.C89_sign_verify_partial",
    "Verif.C89_libp2p_text_partial",
    "Verif.C89_text_counterexample",
    "Verif.C89_hash_number"
   ],
   "note": "The group of secp256k1 is Mathlib's group of points of the curve; the order of the base point and the number of points are proved. The last part is false: a signature whose second number has fewer bytes than the first, or more than one more, is read as other numbers, and VerifyFetchAISignatureLibp2p refuses every number with its highest bit set. Signatures as numbers and as DER are proved to be accepted. Nonces and SHA-256 are parameters."
  },
  {
   "property": "C90",
   "status": "partial",
   "theorems": [
    "Verif.C90_recover_iff",
    "Verif.C90_accepts_iff",
    "Verif.C90_one_id",
    "Verif.C90_malleable",
    "Verif.C90_accepted",
    "Verif.C90_signed_partial",
    "Verif.C90_nonce_counterexample"
   ],
   "note": "The last part is false for nonces whose point has a first coordinate not below the order: neither last byte can express it (C90_nonce_counterexample). Proved for all other nonces. Keccak-256 is a parameter with 32 bytes of result."
  },
  {
   "property": "C91",
   "status": "partial",
   "theorems": [
    "Verif.C91_base64_iff",
    "Verif.C91_base64_roundtrip",
    "Verif.C91_hash_length",
    "Verif.C91_prims",
    "Verif.C91_nonce",
    "Verif.C91_sign_partial",
    "Verif.C91_texts",
    "Verif.C91_sha256_constants",
    "Verif.C91_ripemd_constants",
    "Verif.C91_keccak_constants",
    "Verif.C91_fetchai_iff",
    "Verif.C91_ethereum_iff",
    "Verif.C91_hmac",
    "Verif.C91_rfc6979"
   ],
   "note": "The last part is false for the same reason as C89 and proved for balanced numbers. The primitives are written out from the published standards and compared with the keys, addresses and signatures in the repository's own tests (GoVectors): the model makes the signature of libs/go/aealite/test_env_file.env byte for byte. That the loop for the nonce ends is not proved."
  },
  {
   "property": "C92",
   "status": "proved",
   "theorems": [
    "Verif.C92_checksum",
    "Verif.C92_window",
    "Verif.C92_text",
    "Verif.C92_text_iff",
    "Verif.C92_address_iff",
    "Verif.C92_cid"
   ],
   "note": "Bech32 is written out from the published behaviour of btcutil; validity is that of BIP-173. Of the hashes only the length of Keccak is used."
  },
  {
   "property": "C93",
   "status": "proved",
   "theorems": [
    "Verif.C93_base58_iff",
    "Verif.C93_base58_pair",
    "Verif.C93_hash_text",
    "Verif.C93_key_text",
    "Verif.C93_roundtrip",
    "Verif.C93_ids",
    "Verif.C93_decode_iff",
    "Verif.C93_multihash",
    "Verif.C93_same_text",
    "Verif.C93_stored",
    "Verif.C93_multihash_iff",
    "Verif.C93_text_iff",
    "Verif.C93_uvarint",
    "Verif.C93_multihash_bytes"
   ],
   "note": "Base 58, multihashes and peer.Decode are written out from their published behaviour and compared with the keys, ids and content id in the repository's tests. Texts with another beginning are read as content ids, which is a parameter."
  },
  {
   "property": "C94",
   "status": "proved",
   "theorems": [
    "Verif.C94_local_iff",
    "Verif.C94_public",
    "Verif.C94_printed",
    "Verif.C94_entry_peer",
    "Verif.C94_circuit",
    "Verif.C94_name_refused",
    "Verif.C94_join",
    "Verif.C94_counterexample",
    "Verif.C94_port_iff",
    "Verif.C94_colon",
    "Verif.C94_path",
    "Verif.C94_round_trip",
    "Verif.C94_local_text",
    "Verif.C94_start_hosts"
   ],
   "note": "go-multiaddr v0.2.1 and AddrInfoFromP2pAddr are written out from their published behaviour; protocols the code does not write are parameters. The assumptions on hosts are needed (C94_counterexample)."
  },
  {
   "property": "C95",
   "status": "partial",
   "theorems": [
    "Verif.C95_connect_iff",
    "Verif.C95_honest_peer",
    "Verif.C95_mailbox",
    "Verif.C95_impersonation"
   ],
   "note": "All proved but the last sentence, which is false of every peer: the agent looks at the last certificate only, so the peer's certificate and the signature of its mailbox, which anyone can fetch, let anyone pass for it."
  },
  {
   "property": "C96",
   "status": "proved",
   "theorems": [
    "Verif.C96_sha256",
    "Verif.C96_ripemd160",
    "Verif.C96_keccak256",
    "Verif.C96_keccak256_iff"
   ],
   "note": "Shows that the model's hash functions, which stand for the libraries' code that is not in /repo, are those of the standards. That the libraries compute the same is trusted."
  },
  {
   "property": "C97",
   "status": "partial",
   "theorems": [
    "Verif.C97_connection_partial",
    "Verif.C97_first_partial",
    "Verif.C97_stop_partial",
    "Verif.C97_open_partial",
    "Verif.C97_no_stop_partial",
    "Verif.C97_restart",
    "Verif.C97_restart_counterexample",
    "Verif.C97_redial_counterexample",
    "Verif.C97_put_counterexample",
    "Verif.C97_handed_on",
    "Verif.C97_started",
    "Verif.C97_five_attempts",
    "Verif.C97_hang_up",
    "Verif.C97_listener",
    "Verif.C97_buffered_counterexample"
   ],
   "note": "False as stated. Shown instead, for all histories: a connection that was made when the goroutines of all earlier lives had ended (always true of the first) is read by Start and then by its own goroutine only, and what they read is what arrived; Stop returns exactly when the last life goes on, the connection is open and closing it succeeds; a started agent is connected until a receiving goroutine ends; without Stop the process goes on unless a peer sends a status message without status or there is no connection."
  },
  {
   "property": "C98",
   "status": "partial",
   "theorems": [
    "Verif.C98_envelopes_partial",
    "Verif.C98_written_iff",
    "Verif.C98_one_iff",
    "Verif.C98_empty_counterexample",
    "Verif.C98_split_counterexample",
    "Verif.C98_no_crash"
   ],
   "note": "False as stated: the empty envelope is written without error and nothing is sent; envelopes above 3 MiB are written and refused by the reader; and when the transport splits the data an envelope with another message is read without error. Shown: exactly which envelopes can be written; that sequences arrive when they are not empty, not above 3 MiB, and sizes and data are not split; and for one envelope that arrives in one piece the first two conditions are exact."
  },
  {
   "property": "C99",
   "status": "partial",
   "theorems": [
    "Verif.C99_lookup_partial",
    "Verif.C99_attempt_partial",
    "Verif.C99_same_result",
    "Verif.C99_same_attempt",
    "Verif.C99_absent",
    "Verif.C99_absent_attempt",
    "Verif.C99_never_iff",
    "Verif.C99_silent_counterexample",
    "Verif.C99_unconfirmed_counterexample",
    "Verif.C99_slow_order",
    "Verif.C99_slow_called",
    "Verif.C99_slow_progress",
    "Verif.C99_stuck_counterexample",
    "Verif.C99_slow_wait",
    "Verif.C99_wait_counterexample"
   ],
   "note": "False as stated: streams to providers are opened without a time-out and answers are read without one, so a provider or a peer that never answers keeps a look-up or an attempt waiting for ever; one loop tries all slow envelopes, so that then nothing else is tried and all but 100 of the calls wait; and addresses that nobody provides cost 20 s each. Shown: the bounds if providers and peers answer in time d; exactly when the loop over the providers never ends; order, no loss and progress of the slow queue for all histories; exactly when and how long an envelope waits. The times of local work are left out."
  },
  {
   "property": "C100",
   "status": "partial",
   "theorems": [
    "Verif.C100_progress_partial",
    "Verif.C100_outside_partial",
    "Verif.C100_end_partial",
    "Verif.C100_exclusive",
    "Verif.C100_held",
    "Verif.C100_get_envelope_counterexample"
   ],
   "note": "False as stated: get_envelope writes its response with the lock of the mailbox held, so a client that does not read it stops every use of the mailbox, and with it every RouteEnvelope of a peer that has a mailbox. Shown without calls of get_envelope: from every reachable state some thread goes on unless all wait for somebody outside, and all threads can be brought to their end or to such a wait; whoever waits outside holds nothing. Shown with them: writers exclude. The programs are lists of operations on locks taken from the code by hand; locks of metrics other than the one taken under another lock are left out."
  },
  {
   "property": "C101",
   "status": "partial",
   "theorems": [
    "Verif.C101_loop_iff",
    "Verif.C101_loop_never_iff",
    "Verif.C101_loop_partial",
    "Verif.C101_same",
    "Verif.C101_route_partial",
    "Verif.C101_route_prompt",
    "Verif.C101_starts",
    "Verif.C101_relay_counterexample",
    "Verif.C101_peer_counterexample",
    "Verif.C101_stuck_counterexample",
    "Verif.C101_time",
    "Verif.C101_time_own",
    "Verif.C101_stream_time"
   ],
   "note": "False as stated: the retry loops never end once their time-out has expired, connecting and the answers of others have no time-out, and main routes one envelope after the other, so one envelope to a peer that cannot be reached for a minute stops all envelopes of the agent for good. Shown: exactly when and at what time a retry loop returns; the bound if all others answer in time d; exactly when each envelope is routed."
  },
  {
   "property": "C102",
   "status": "partial",
   "theorems": [
    "Verif.C102_no_race_partial",
    "Verif.C102_start_counterexample",
    "Verif.C102_mailbox_counterexample"
   ],
   "note": "False as stated while a peer starts: New loads and announces the stored records without a lock when registrations are already served, and the mailbox makes its maps without a lock when envelopes are already routed. Shown for any number of threads once the threads of the start have ended. The accesses are part of the programs taken from the code by hand. Left out: the file handle, the pointer to the mailbox, processEnvelope, the values of metrics, and what the maps hold (channels, connections and records are used outside the locks)."
  },
  {
   "property": "C103",
   "status": "partial",
   "theorems": [
    "Verif.C103_place_partial",
    "Verif.C103_relay",
    "Verif.C103_handed_out",
    "Verif.C103_counterexample",
    "Verif.C103_mailbox_counterexample"
   ],
   "note": "False as stated: the record that a look-up gives to everybody is all a delegate connection or a mailbox session needs. Shown: without such a record the place is safe at the delegate service and the mailbox, and over streams it is safe whatever records the stranger has, since there the record must name the key of the stream. Assumed: a valid record for this peer shown by the stranger is of its own agent or of an agent a record of which naming this peer it has (signatures are not forged); for streams, that a peer id stands for one key. What the stranger does besides (envelopes, reading, closing) is among the steps of others. New records that the stranger gets are not limited in any way."
  },
  {
   "property": "C104",
   "status": "partial",
   "theorems": [
    "Verif.C104_tables_partial",
    "Verif.C104_short",
    "Verif.C104_sections",
    "Verif.C104_exclusion",
    "Verif.C104_announced",
    "Verif.C104_reader",
    "Verif.C104_writer",
    "Verif.C104_counterexample"
   ],
   "note": "False as stated: notifications announce all clients, each for up to 3 s, with the table of connections or of relay clients locked for reading; somebody who connects meanwhile keeps everybody else out. Shown: exactly which calls are made with which lock held; a reader waits for one reader and one writer at most, so 3 s for each client announced (and one write to the file); for the locks of records, statuses, queues, announcements and metrics nobody waits. The rules of the RWMutex are stated as such, not derived from its code. The time of the processor, the lock of the mailbox (see C100) and closing are left out."
  },
  {
   "property": "C105",
   "status": "partial",
   "theorems": [
    "Verif.C105_agree_partial",
    "Verif.C105_exact",
    "Verif.C105_known",
    "Verif.C105_counterexample"
   ],
   "note": "False as stated: the record and the relay peer are stored under two locks, one after the other, so two registrations of one address can leave the record of one and the peer of the other. Shown: exactly what is left behind by every interleaving; agreement if registrations of one address do both sections in the same order; and that a look-up always has a record, in every history. Assumed in the first three that writing to the file succeeds (C23 is about writes that do not)."
  },
  {
   "property": "C106",
   "status": "partial",
   "theorems": [
    "Verif.C106_same",
    "Verif.C106_route_partial",
    "Verif.C106_starts_partial",
    "Verif.C106_absent",
    "Verif.C106_delegate_silent",
    "Verif.C106_flood",
    "Verif.C106_client_counterexample",
    "Verif.C106_provider_counterexample",
    "Verif.C106_stuck_counterexample",
    "Verif.C106_flood_counterexample",
    "Verif.C106_own"
   ],
   "note": "False as stated: a delegate client that does not read, a relay client that never confirms, or a provider that never answers keeps the loop of main waiting for ever, and after more than 101 envelopes to addresses that nobody provides each further one costs 20 s. Shown: the bound 13.2 s and the times of the others for each call, and for a whole queue, if the others are prompt; what an absent address and a silent delegate client cost; and, from both sides, when envelopes get into the slow queue."
  },
  {
   "property": "C107",
   "status": "partial",
   "theorems": [
    "Verif.C107_found_partial",
    "Verif.C107_only",
    "Verif.C107_early_counterexample",
    "Verif.C107_unsaved_counterexample"
   ],
   "note": "False as stated: the answer is sent before the client is entered into the tables, so it is not found until the second section is done, and a failed write to the file is only logged, so it is not found after a restart. Shown: once both sections are done the client is found for ever, whatever happens, and only clients that were told so are relayed for."
  },
  {
   "property": "C108",
   "status": "partial",
   "theorems": [
    "Verif.C108_queues_partial",
    "Verif.C108_envelopes_partial",
    "Verif.C108_each",
    "Verif.C108_queues_counterexample",
    "Verif.C108_records_counterexample"
   ],
   "note": "False as stated: a goroutine and a queue are made for each receiver that a client names and are never given up, and the record of a client stays. Shown: at most one queue for each connection and pair, at least one for each pair, and at most 1001 envelopes for each queue."
  },
  {
   "property": "C109",
   "status": "partial",
   "theorems": [
    "Verif.C109_agent_partial",
    "Verif.C109_handler_partial",
    "Verif.C109_stuck_counterexample",
    "Verif.C109_early_counterexample",
    "Verif.C109_first_counterexample"
   ],
   "note": "False as stated, with one well-behaved connection and with two: the connection is listed before its queue exists, so that an envelope in between is reported as failed and every later one with the answer to the one before; and the end of an older connection removes the queue of a newer one, whose handler then blocks for ever. Shown: a status is never taken for an envelope to another agent, and with one connection for an address its handler reads on unless 1000 statuses wait."
  },
  {
   "property": "C110",
   "status": "proved",
   "theorems": [
    "Verif.Descriptor.C110_search",
    "Verif.Descriptor.C110_fipa",
    "Verif.Descriptor.C110_default",
    "Verif.Descriptor.C110_base",
    "Verif.Descriptor.C110_acn",
    "Verif.Descriptor.C110_envelope",
    "Verif.Descriptor.C110_indices",
    "Verif.Descriptor.C110_status_codes"
   ],
   "note": "The descriptors are read by the model of the library itself, with the definitions of descriptor.proto. Definitions that differ only in the names of messages write and read alike, which is shown for all messages and bytes; that the definitions differ only in names is computed from the bytes in the generated code. The definition of google.protobuf.Struct is not in /repo."
  },
  {
   "property": "C111",
   "status": "proved",
   "theorems": [
    "Verif.Descriptor.C111_search",
    "Verif.Descriptor.C111_fipa",
    "Verif.Descriptor.C111_default",
    "Verif.Descriptor.C111_base",
    "Verif.Descriptor.C111_acn",
    "Verif.Descriptor.C111_names",
    "Verif.Descriptor.C111_enums"
   ],
   "note": "The packages of searches and of the default protocol have other names, which are not written. That the library of Python reads a descriptor as the library of Go does is assumed."
  },
  {
   "property": "C112",
   "status": "partial",
   "theorems": [
    "Verif.C112_mailbox_partial",
    "Verif.C112_session_partial",
    "Verif.C112_counterexample"
   ],
   "note": "False as stated: registering again makes another session of the address, any number of times, and when one is given up the others are left without a mailbox. Shown: every mailbox has a session, and the bound; and the whole of it if nobody registers an address that has a session or is giving one up. Session identifiers are assumed to be fresh."
  },
  {
   "property": "C113",
   "status": "partial",
   "theorems": [
    "Verif.Streams.C113_order_partial",
    "Verif.Streams.C113_unbroken",
    "Verif.Streams.C113_told",
    "Verif.Streams.C113_all",
    "Verif.Streams.C113_counterexample"
   ],
   "note": "False as stated: when a stream breaks after the other node has read the envelope, the sender goes on, and the next envelope may be handed over first; the sender has an error about an envelope that was handed over. Shown: only an envelope whose stream broke for the sender can be overtaken; without such streams the order is kept, and what was not reported as failed arrives; at most once and told success only if handed over, always."
  },
  {
   "property": "C114",
   "status": "partial",
   "theorems": [
    "Verif.StreamEnd.C114_envelope_handler",
    "Verif.StreamEnd.C114_address_handler_partial",
    "Verif.StreamEnd.C114_register_handler_partial",
    "Verif.StreamEnd.C114_peer_send_partial",
    "Verif.StreamEnd.C114_delivered_left",
    "Verif.StreamEnd.C114_grows",
    "Verif.StreamEnd.C114_lookups",
    "Verif.StreamEnd.C114_client_partial",
    "Verif.StreamEnd.C114_counterexample",
    "Verif.StreamEnd.C114_asked"
   ],
   "note": "False as stated: a peer leaves the stream of every envelope it has written, delivered or not, so that their number grows without bound; the handlers of look-ups, of refused registrations and of notifications, and a client whose look-up fails, leave theirs. Shown: exactly when each function leaves a stream; the envelope handler, the look-ups of peers and clients that deliver never do. What the libp2p library does with a stream that is left open is not modelled."
  },
  {
   "property": "C115",
   "status": "partial",
   "theorems": [
    "Verif.LookupChain.C115_endless",
    "Verif.LookupChain.C115_ends_partial",
    "Verif.LookupChain.C115_iff",
    "Verif.LookupChain.C115_distinct",
    "Verif.LookupChain.C115_answer",
    "Verif.LookupChain.C115_fresh",
    "Verif.LookupChain.C115_counterexample",
    "Verif.LookupChain.C115_finds",
    "Verif.LookupChain.C115_finds_one"
   ],
   "note": "False as stated: two peers that have both announced an address and both lost it ask each other for ever, with one more stream and one more handler for every request. Shown: in a network that stays as it is a look-up ends if and only if no peer is asked while it waits itself, and then never more peers wait than there are; in one that changes it ends if the peers can be ranked so that each asks only peers that have the address or are of a lower rank; a record it ends with is one that a peer had, and has passed the check unless it is the record of the first peer. The search for providers in the Kademlia table is a parameter."
  },
  {
   "property": "C116",
   "status": "partial",
   "theorems": [
    "Verif.RecordDates.C116_same_proof",
    "Verif.RecordDates.C116_counterexample",
    "Verif.RecordDates.C116_no_limits",
    "Verif.RecordDates.C116_partial",
    "Verif.RecordDates.C116_envelope",
    "Verif.RecordDates.C116_registration",
    "Verif.RecordDates.C116_own_undated"
   ],
   "note": "False: whatever is accepted is accepted as well with dates that exclude the day and for another service. Shown instead: the check, and the handlers of envelopes and registrations, do the same for all records with the same ledger, address, keys and signature; what a peer says of its own agent never has dates; and, if signatures cannot be forged, the agent has signed the key of the peer on whatever day."
  },
  {
   "property": "C117",
   "status": "partial",
   "theorems": [
    "Verif.Documented.C117_registration_partial",
    "Verif.Documented.C117_registration_total",
    "Verif.Documented.C117_registration_counterexample",
    "Verif.Documented.C117_envelope_partial",
    "Verif.Documented.C117_envelope_total",
    "Verif.Documented.C117_status_counterexample",
    "Verif.Documented.C117_no_record_counterexample",
    "Verif.Documented.C117_not_ready_counterexample",
    "Verif.Documented.C117_agent",
    "Verif.Documented.C117_lookup_refused",
    "Verif.Documented.C117_lookup_local",
    "Verif.Documented.C117_lookup_remote"
   ],
   "note": "Shown for all frames, with these exceptions, in which it is false: a registration or an envelope without a record crashes the peer, a status on an envelope stream is not answered, and an own agent that is not ready is answered for with success. Mailboxes are not in the documentation and count as success. That an address or signature function panics is excluded by hypothesis (see C25), as are texts that are not UTF-8."
  },
  {
   "property": "C118",
   "status": "partial",
   "theorems": [
    "Verif.Moved.C118_relay_forever",
    "Verif.Moved.C118_old_record",
    "Verif.Moved.C118_old_found",
    "Verif.Moved.C118_forgot_iff",
    "Verif.Moved.C118_delegate_leaves",
    "Verif.Moved.C118_mailbox_leaves",
    "Verif.Moved.C118_partial",
    "Verif.Moved.C118_counterexample"
   ],
   "note": "False as stated: a peer that has had the agent as a relay client answers for it ever after, restarts included, with a record that passes the check, and a look-up that reaches this peer first ends with it. Shown as well: delegates and mailboxes are forgotten when they leave; if all other peers have forgotten the address, every look-up that ends gives the new record, and it ends if the peers can be ranked as in C115. Writes to the file are assumed to go well for the part about restarts."
  },
  {
   "property": "C119",
   "status": "partial",
   "theorems": [
    "Verif.C119_unaltered",
    "Verif.C119_partial",
    "Verif.C119_absent",
    "Verif.C119_or_session",
    "Verif.C119_counterexample"
   ],
   "note": "False as stated because of sessions of mailboxes, which may name any sender that the peer knows. Shown: nothing is made up or altered on the way, whatever the tables, the network and the schedule; and if sessions name themselves, every envelope that an agent is given was written by its sender. Envelopes longer than 2^64 bytes are left out. Nodes that run other code are left out too, see C27."
  },
  {
   "property": "C120",
   "status": "proved",
   "theorems": [
    "Verif.C120_route",
    "Verif.C120_retry",
    "Verif.C120_handle",
    "Verif.C120_client",
    "Verif.C120_one_peer"
   ],
   "note": "Assumes that there is no peer with an empty id (a look-up in which nobody helps ends with one, C33) and that peers have secp256k1 keys; of a relay client with another type of key the id is not determined by the record. That a connection presented a record does not mean that it is the agent: records can be presented by anyone who has seen them (C103)."
  },
  {
   "property": "C121",
   "status": "partial",
   "theorems": [
    "Verif.Remembered.C121_records_stay",
    "Verif.Remembered.C121_departure",
    "Verif.Remembered.C121_again",
    "Verif.Remembered.C121_one_client",
    "Verif.Remembered.C121_partial",
    "Verif.Remembered.C121_restart",
    "Verif.C121_counterexample"
   ],
   "note": "False as stated: no step removes a record from memory, and every registration of a relay client, also of the same record, is appended to the file, so that one client that registers n times has taken at least 5n bytes. Shown instead: every record in memory and in the file is that of a registration that was accepted, with no more records in the file than registration streams; a restart forgets all but the relay clients in the file and reads all of it."
  },
  {
   "property": "C122",
   "status": "partial",
   "theorems": [
    "Verif.CrossTalk.C122_opener",
    "Verif.CrossTalk.C122_partial",
    "Verif.CrossTalk.C122_dead",
    "Verif.C122_counterexample"
   ],
   "note": "False as stated: the opener's second message crosses the responder's first two and is refused; the opener's third, in answer to the responder's first, is accepted; the responder's next plain reply then indexes the third of two messages and panics. Shown instead: the opener is never crashed and records exactly the first messages of the responder; if the opener waits for the first answer, neither is crashed and both record exactly the first messages of the other. Also false is that they can go on: once each side has said more than either has heard, no message is ever accepted again on either side."
  },
  {
   "property": "C123",
   "status": "partial",
   "theorems": [
    "Verif.C123_untouched",
    "Verif.C123_listed_partial",
    "Verif.C123_next_turn_partial",
    "Verif.C123_same_history_partial",
    "Verif.C123_crossing_partial",
    "Verif.C123_counterexample"
   ],
   "note": "Dialogues are told apart by counterparty and the opener's reference. For different references C123_untouched has no further assumption; the others assume that Reply is not used on a dialogue dropped while its reference was incomplete (Orderly), and what C53 and C122 assume. False for two dialogues with the same reference, one opened by each agent: counterexample."
  },
  {
   "property": "C124",
   "status": "partial",
   "theorems": [
    "Verif.DialogueMemory.C124_ended_gone",
    "Verif.DialogueMemory.C124_references_partial",
    "Verif.DialogueMemory.C124_references_stay",
    "Verif.DialogueMemory.C124_counterparties_stay",
    "Verif.DialogueMemory.C124_counterexample"
   ],
   "note": "False as stated: the table of incomplete references keeps an entry for every opening message ever processed, refused ones included, and the table of counterparties one for each counterparty. Shown: the dialogues themselves go, and there are no more entries than messages processed."
  },
  {
   "property": "C125",
   "status": "proved",
   "theorems": [
    "Verif.C125_not_at_once",
    "Verif.C125_taken_again",
    "Verif.C125_never_again",
    "Verif.C125_at_most",
    "Verif.C125_counterexample"
   ],
   "note": "The counterexample shows that the bound is met: the very same message number 3 is taken three times."
  },
  {
   "property": "C126",
   "status": "partial",
   "theorems": [
    "Verif.MailPoll.C126_law_partial",
    "Verif.MailPoll.C126_in_order_partial",
    "Verif.MailPoll.C126_kept_partial",
    "Verif.MailPoll.C126_all_arrive",
    "Verif.MailPoll.C126_counterexample"
   ],
   "note": "False as stated: an envelope is removed as soon as net/http has taken the response. Shown: the exact law of what is received, what is gone and what is left; nothing twice or out of order; nothing lost where every loss is seen by Write. The behaviour of Write of net/http is an assumption with the size of its buffers as a parameter."
  },
  {
   "property": "C127",
   "status": "proved",
   "theorems": [
    "Verif.PayloadBlind.C127_route",
    "Verif.PayloadBlind.C127_slow",
    "Verif.PayloadBlind.C127_handle",
    "Verif.PayloadBlind.C127_client",
    "Verif.PayloadBlind.C127_queues"
   ],
   "note": "For envelopes that can be encoded (their texts are UTF-8), which are all that are read from connections. The behaviour of the network - what others answer - is taken to be the same for both envelopes."
  },
  {
   "property": "C128",
   "status": "partial",
   "theorems": [
    "Verif.Deadly.C128_registration_partial",
    "Verif.Deadly.C128_envelope_partial",
    "Verif.Deadly.C128_request",
    "Verif.Deadly.C128_asked_partial",
    "Verif.Deadly.C128_lookup_partial",
    "Verif.Deadly.C128_sending_partial",
    "Verif.Deadly.C128_registering_partial",
    "Verif.Deadly.C128_delegate_partial",
    "Verif.Deadly.C128_reopening_partial",
    "Verif.Deadly.C128_client_lookup_partial",
    "Verif.Deadly.C128_client_sending_partial",
    "Verif.Deadly.DeadlyDemo.C128_counterexample",
    "Verif.Deadly.C128_trying_partial",
    "Verif.Deadly.C128_again_partial",
    "Verif.Deadly.C128_routing_partial",
    "Verif.Deadly.C128_handling_partial",
    "Verif.Deadly.C128_client_routing_partial"
   ],
   "note": "False as stated. Shown for each place: exactly which messages crash the node - a status without body, a registration, envelope or answer without a record, and records whose check crashes (C25) - and that no others do. Crashes for other reasons than what is read (C68, C97) are not part of it."
  },
  {
   "property": "C129",
   "status": "proved",
   "theorems": [
    "Verif.Bystanders.C129_step",
    "Verif.Bystanders.C129_run",
    "Verif.Bystanders.C129_route",
    "Verif.Bystanders.C129_slow",
    "Verif.Bystanders.C129_handle",
    "Verif.Bystanders.C129_asked",
    "Verif.Bystanders.C129_undisturbed"
   ],
   "note": "What the network does during a call is taken to be the same. Time is not in it: a registration holds locks for a while, and the queues of envelopes are shared, so others may delay an envelope (C99, C100, C104, C106). A step concerns an agent if it registers the agent's address, whoever takes it; that only the agent can is C57."
  },
  {
   "property": "C130",
   "status": "proved",
   "theorems": [
    "Verif.Traffic.C130_bounded",
    "Verif.Traffic.C130_stranger",
    "Verif.Traffic.C130_nothing_else",
    "Verif.Traffic.C130_one_way",
    "Verif.Traffic.C130_rest",
    "Verif.Traffic.C130_complete_peer",
    "Verif.Traffic.C130_complete_client"
   ],
   "note": "Look-ups and acknowledgements are not counted; look-ups can go round without end (C115). The bounds are reached: an envelope whose acknowledgement is lost is put into the slow queue, sent again and handed over twice, see the example and C78."
  },
  {
   "property": "C131",
   "status": "partial",
   "theorems": [
    "Verif.C131_from_client_partial",
    "Verif.C131_from_peer_partial",
    "Verif.C131_carried_partial",
    "Verif.C131_peer_carried_partial",
    "Verif.C131_lost_counterexample"
   ],
   "note": "Success means that the envelope was handed over once, whoever is at the other end and wherever the stream breaks; over a stream that carries everything the result is exact. An error may be reported for an envelope that was handed over, if the answer is lost. A client does not try again, so it is never handed over twice (C130). At a peer, handing over to the own agent does not wait for the agent (C78); at a client it does."
  },
  {
   "property": "C132",
   "status": "partial",
   "theorems": [
    "Verif.C132_recorded",
    "Verif.C132_taken_once",
    "Verif.C132_heard_partial",
    "Verif.C132_dialogue_partial",
    "Verif.C132_all_given",
    "Verif.C132_counterexample",
    "Verif.C132_any_network",
    "Verif.C132_listener"
   ],
   "note": "Without envelopes that pass through the retry queue (as in C79); such an envelope may arrive twice, and the dialogue may take it twice: counterexample. Message ids and targets are 32-bit numbers (C15). For single dialogues it is assumed that the sender has only one dialogue with the receiver under that reference (C123)."
  },
  {
   "property": "C133",
   "status": "partial",
   "theorems": [
    "Verif.WholeNet.C133_said_partial",
    "Verif.WholeNet.C133_in_order_partial",
    "Verif.WholeNet.C133_silent_partial",
    "Verif.WholeNet.C133_counterexample",
    "Verif.WholeNet.C133_dialogue_partial",
    "Verif.WholeNet.C133_or_session"
   ],
   "note": "False as stated because of sessions of mailboxes, which may name any sender that the peer knows (C28, C119): counterexample. Shown if sessions name themselves. Assumed: the two agents put the messages of their dialogues into envelopes and take them out as C15 says; for the order, the sender has only one dialogue with the receiver under that reference (C123)."
  },
  {
   "property": "C134",
   "status": "proved",
   "theorems": [
    "Verif.C134_in_order",
    "Verif.C134_example_eleven",
    "Verif.C134_example_stop",
    "Verif.C134_delivered",
    "Verif.C134_stopping",
    "Verif.C134_arrived",
    "Verif.C134_hung_up",
    "Verif.C134_put",
    "Verif.C134_get"
   ],
   "note": "The model of C97. Until Stop is called: afterwards a receiving goroutine may hand on what failed to decode. C134_example_stop also shows that stopping an agent with a full queue ends the process with a panic."
  }
 ]
}