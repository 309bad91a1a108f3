{
 "claims": [
  {
   "property": "C01",
   "status": "proved",
   "theorems": [
    "Verif.Props.c01_fcs_is_crc24"
   ],
   "note": ""
  },
  {
   "property": "C02",
   "status": "proved",
   "theorems": [
    "Verif.Props.c02_burst_detected"
   ],
   "note": "Stated for any burst of at most 24 consecutive bits that leaves the coverage (PM bit) unchanged."
  },
  {
   "property": "C03",
   "status": "proved",
   "theorems": [
    "Verif.Props.c03_ui_roundtrip",
    "Verif.Props.c03_mac_refused"
   ],
   "note": ""
  },
  {
   "property": "C04",
   "status": "partial",
   "theorems": [
    "Verif.Props.c04_u_roundtrip_partial",
    "Verif.Props.c04_u_roundtrip_violated"
   ],
   "note": "False of the code for unprotected U frames of more than 7 octets; negation proved."
  },
  {
   "property": "C05",
   "status": "partial",
   "theorems": [
    "Verif.Props.c05_is_roundtrip_partial",
    "Verif.Props.c05_violated_sack",
    "Verif.Props.c05_violated_rnr",
    "Verif.Props.c05_violated_ack_req"
   ],
   "note": "False of the code for SACK, RNR and the A bit of S frames; negations proved."
  },
  {
   "property": "C06",
   "status": "partial",
   "theorems": [
    "Verif.Props.c06_decoder_safe_partial",
    "Verif.Props.c06_violated_overflow",
    "Verif.Props.c06_violated_underflow",
    "Verif.Props.c06_decoder_safe_violated"
   ],
   "note": "False of the code for two frame shapes; negations proved."
  },
  {
   "property": "C07",
   "status": "proved",
   "theorems": [
    "Verif.Props.c07_xid_roundtrip",
    "Verif.Props.c07_xid_encode_in_bounds"
   ],
   "note": ""
  },
  {
   "property": "C08",
   "status": "proved",
   "theorems": [
    "Verif.Props.c08_xid_decode_valid"
   ],
   "note": ""
  },
  {
   "property": "C09",
   "status": "proved",
   "theorems": [
    "Verif.Props.c09_consecutive_nu"
   ],
   "note": "Histories without LLGMM-ASSIGN/RESET, which restart the numbering."
  },
  {
   "property": "C10",
   "status": "partial",
   "theorems": [
    "Verif.Props.c10_oc_agree_partial",
    "Verif.Props.c10_oc_agree_violated"
   ],
   "note": "False of the code for every 512th frame; negation proved, and the exact set of frames where it holds."
  },
  {
   "property": "C11",
   "status": "partial",
   "theorems": [
    "Verif.Props.c11_repeated_duplicates_partial",
    "Verif.Props.c11_no_duplicates_violated",
    "Verif.Props.c11_new_accepted"
   ],
   "note": "False of the code: the first duplicate is delivered; negation proved."
  },
  {
   "property": "C12",
   "status": "proved",
   "theorems": [
    "Verif.Props.c12_oversize_or_once",
    "Verif.Props.c12_suspended"
   ],
   "note": ""
  },
  {
   "property": "C13",
   "status": "partial",
   "theorems": [
    "Verif.Props.c13_attribution_partial",
    "Verif.Props.c13_change",
    "Verif.Props.c13_unassign",
    "Verif.Props.c13_confirm",
    "Verif.Props.c13_violated_unassigned",
    "Verif.Props.c13_violated_collision"
   ],
   "note": "Proved for histories that do not give one TLLI to two entities and do not use the unassigned value as address; for those it is false (negations proved)."
  },
  {
   "property": "C14",
   "status": "proved",
   "theorems": [
    "Verif.Props.c14_params_legal"
   ],
   "note": ""
  },
  {
   "property": "C57",
   "status": "proved",
   "theorems": [
    "Verif.Props.c57_inorder_delivery"
   ],
   "note": ""
  },
  {
   "property": "C58",
   "status": "partial",
   "theorems": [
    "Verif.Props.c58_command_partial",
    "Verif.Props.c58_response_violated",
    "Verif.Props.c58_violated",
    "Verif.Props.c58_xid_exchange_never_ends"
   ],
   "note": "False of the code for responses; negation and the resulting endless exchange proved."
  },
  {
   "property": "C59",
   "status": "partial",
   "theorems": [
    "Verif.Props.c59_xid_req_delivered_partial",
    "Verif.Props.c59_violated"
   ],
   "note": "Proved without Layer-3 parameters; with them the frame's FCS is wrong at the peer (negation proved)."
  },
  {
   "property": "C60",
   "status": "partial",
   "theorems": [
    "Verif.Props.c60_never_faults_partial",
    "Verif.Props.c60_violated",
    "Verif.Props.c06_violated_overflow"
   ],
   "note": "Proved for all requests and all frames except two malformed kinds, for which it is false (negations proved)."
  },
  {
   "property": "C17",
   "status": "partial",
   "theorems": [
    "Verif.Props.c17_dl_window_exact_partial",
    "Verif.Props.c17_dl_window_exact_violated",
    "Verif.Props.c17_dl_window_deadlock_violated"
   ],
   "note": "Proved when no gap of a full window is open; false of the code otherwise: V(Q)=V(R) mod 128 is read as an empty window and the TBF stops taking blocks out for ever (negation and deadlock proved)."
  },
  {
   "property": "C18",
   "status": "partial",
   "theorems": [
    "Verif.Props.c18_ack_bitmap_exact_partial",
    "Verif.Props.c18_ack_bitmap_exact_violated",
    "Verif.Props.c18_no_false_ack"
   ],
   "note": "No block that was not received is ever reported received (proved unconditionally); exactness proved under the same condition as C17, negation proved otherwise."
  },
  {
   "property": "C19",
   "status": "partial",
   "theorems": [
    "Verif.Props.c19_segmentation_inverse_partial",
    "Verif.Props.c19_encoder_progress",
    "Verif.Props.c19_everything_is_sent",
    "Verif.Props.c19_segmentation_inverse_violated"
   ],
   "note": "Proved except when the last frame exactly fills the rest of the last block behind another frame; there the more bit stays 0 and the frame is lost (negation proved)."
  },
  {
   "property": "C20",
   "status": "proved",
   "theorems": [
    "Verif.Props.c20_parser_exact",
    "Verif.Props.c20_short_payload_overread"
   ],
   "note": "For every payload of at least 17 octets, which covers all GPRS coding schemes.  The off-by-one bound check would over-read shorter payloads (shown), which GPRS does not have."
  },
  {
   "property": "C21",
   "status": "partial",
   "theorems": [
    "Verif.Props.c21_delivered_in_order",
    "Verif.Props.c21_all_delivered_partial",
    "Verif.Props.c21_all_delivered_violated"
   ],
   "note": "Order, exactly-once and integrity proved for every history; completeness proved when no gap of a full window is open and false of the code otherwise (negation proved)."
  },
  {
   "property": "C61",
   "status": "partial",
   "theorems": [
    "Verif.Props.c21_delivered_in_order",
    "Verif.Props.c61_dl_data_never_aborts_violated"
   ],
   "note": "Proved for senders that keep PDUs within 1543 octets; false otherwise (78 blocks without end of PDU abort the process)."
  },
  {
   "property": "C15",
   "status": "proved",
   "theorems": [
    "Verif.Props.c15_window_bounded"
   ],
   "note": "Against an observer with unbounded block numbers, for every history of requests to send and Ack/Nack messages."
  },
  {
   "property": "C16",
   "status": "proved",
   "theorems": [
    "Verif.Props.c16_leaves_only_acknowledged",
    "Verif.Props.c16_unacknowledged_repeated"
   ],
   "note": "A block repeated only because there is nothing else to send is not counted as a retransmission."
  },
  {
   "property": "C22",
   "status": "proved",
   "theorems": [
    "Verif.Props.c22_bitmap_applied"
   ],
   "note": ""
  },
  {
   "property": "C24",
   "status": "partial",
   "theorems": [
    "Verif.Props.c24_conserved",
    "Verif.Props.c24_priority",
    "Verif.Props.c24_fifo_partial",
    "Verif.Props.c24_fifo_violated"
   ],
   "note": "Conservation, counters and priority proved for every history; order proved unless a TBF is freed during its countdown with several frames of one class left, for which it is false of the code (negation proved)."
  },
  {
   "property": "C25",
   "status": "partial",
   "theorems": [
    "Verif.Props.c25_dequeue_safe_partial",
    "Verif.Props.c25_only_codel_drops_fail",
    "Verif.Props.c25_dequeue_safe_violated"
   ],
   "note": "Proved with CoDel off; false of the code with CoDel on: the dropped frame is used after it was freed (negation proved)."
  },
  {
   "property": "C26",
   "status": "proved",
   "theorems": [
    "Verif.Props.c26_drop_only_after_interval",
    "Verif.Props.c26_parameters",
    "Verif.Props.c26_spacing",
    "Verif.Props.c26_factor"
   ],
   "note": ""
  },
  {
   "property": "C62",
   "status": "partial",
   "theorems": [
    "Verif.Props.c25_dequeue_safe_partial",
    "Verif.Props.c62_empty_pdu_violated"
   ],
   "note": "Proved for non-empty LL-PDUs; false of the code for empty ones (negation proved)."
  },
  {
   "property": "C63",
   "status": "partial",
   "theorems": [
    "Verif.Props.c63_codel_stays_partial",
    "Verif.Props.c63_codel_stays_violated"
   ],
   "note": "Proved until the first countdown procedure; false of the code afterwards (negation proved)."
  },
  {
   "property": "C23",
   "status": "partial",
   "theorems": [
    "Verif.Props.c23_countdown_value_partial",
    "Verif.Props.c23_counts_down_partial",
    "Verif.Props.c23_countdown_value_violated"
   ],
   "note": "Proved for one timeslot and every history; false of the code with two timeslots (negation proved)."
  },
  {
   "property": "C32",
   "status": "partial",
   "theorems": [
    "Verif.Props.c32_polls",
    "Verif.Props.c32_total",
    "Verif.Props.c32_owner_partial",
    "Verif.Props.c32_owner_violated"
   ],
   "note": "Exclusivity, lookup, expiry and release of TBFs proved as a refinement for every history and tree shape; polls owned by an MS entity survive it (negation proved)."
  },
  {
   "property": "C33",
   "status": "proved",
   "theorems": [
    "Verif.Props.c33_poll_fn",
    "Verif.Props.c33_poll_block"
   ],
   "note": ""
  },
  {
   "property": "C34",
   "status": "proved",
   "theorems": [
    "Verif.Props.c34_starting_block"
   ],
   "note": ""
  },
  {
   "property": "C35",
   "status": "partial",
   "theorems": [
    "Verif.Props.c35_size_ul",
    "Verif.Props.c35_size_dl_partial",
    "Verif.Props.c35_size_dl_violated"
   ],
   "note": "Uplink proved; downlink proved for CS-1..4 and MCS-1..4, false of the code for MCS-5..9 (negation proved)."
  },
  {
   "property": "C36",
   "status": "proved",
   "theorems": [
    "Verif.Props.c36_retx_mcs",
    "Verif.Props.c36_retx_compatible"
   ],
   "note": ""
  },
  {
   "property": "C37",
   "status": "partial",
   "theorems": [
    "Verif.Props.c37_octet_count_partial",
    "Verif.Props.c37_octet_count_violated"
   ],
   "note": "PACKET DOWNLINK ACK/NACK proved; false of the code for PACKET RESOURCE REQUEST (negation proved)."
  },
  {
   "property": "C64",
   "status": "partial",
   "theorems": [
    "Verif.Props.c64_starting_time_rfn_partial",
    "Verif.Props.c64_starting_time_range_violated"
   ],
   "note": "Proved for fields in the ranges of the frame number coding; false of the code for T3 above 50 (negation proved)."
  },
  {
   "property": "C65",
   "status": "proved",
   "theorems": [
    "Verif.Props.c65_inc_dec",
    "Verif.Props.c65_inc_dec_range",
    "Verif.Props.c65_chan_code"
   ],
   "note": ""
  },
  {
   "property": "C27",
   "status": "partial",
   "theorems": [
    "Verif.Props.c27_uplink_tbf_survives_partial",
    "Verif.Props.c27_unexpected_ignored",
    "Verif.Props.c27_violated",
    "Verif.Props.c27_early_ack_violated",
    "Verif.Props.c27_n3104_violated",
    "Verif.Props.c27_starting_time_violated",
    "Verif.Props.c27_wraparound_violated"
   ],
   "note": "False of the code in four ways (witnesses proved); proved for all other event sequences."
  },
  {
   "property": "C28",
   "status": "partial",
   "theorems": [
    "Verif.Props.c28_access_attempts_partial",
    "Verif.Props.c28_violated",
    "Verif.Props.c28_unbounded_violated"
   ],
   "note": "Accesses caused by N3104 are not counted by the code and unbounded (proved); all others are bounded by four."
  },
  {
   "property": "C29",
   "status": "partial",
   "theorems": [
    "Verif.Props.c29_not_stuck_partial",
    "Verif.Props.c29_violated",
    "Verif.Props.c29_stuck_violated",
    "Verif.Props.c29_single_block_violated"
   ],
   "note": "The wait for an immediate assignment and for a past single block has no timer (proved); all other states have one, or leave at the granted block."
  },
  {
   "property": "C30",
   "status": "partial",
   "theorems": [
    "Verif.Props.c30_assignment_partial",
    "Verif.Props.c30_imm_ass_grants",
    "Verif.Props.c30_imm_ass_waits",
    "Verif.Props.c30_pkt_ul_ass_grants",
    "Verif.Props.c30_poll_delays_start",
    "Verif.Props.c30_violated",
    "Verif.Props.c30_unsupported_violated",
    "Verif.Props.c30_no_timeslot_violated"
   ],
   "note": "False of the code for assignments without a timeslot or of an unsupported kind (proved); proved for the others."
  },
  {
   "property": "C66",
   "status": "proved",
   "theorems": [
    "Verif.Props.c66_next_block"
   ],
   "note": ""
  },
  {
   "property": "C67",
   "status": "proved",
   "theorems": [
    "Verif.Props.c67_n3104"
   ],
   "note": ""
  },
  {
   "property": "C40",
   "status": "partial",
   "theorems": [
    "Verif.Props.c40_segments_partial",
    "Verif.Props.c40_standard_partial",
    "Verif.Props.c40_any_count_partial",
    "Verif.Props.c40_refusal",
    "Verif.Props.c40_statement_violated",
    "Verif.Props.c40_first_flag_wraps"
   ],
   "note": "False of the code above 65279 octets (abort) and above 256 fragments (F set again), both proved; proved for everything else."
  },
  {
   "property": "C41",
   "status": "partial",
   "theorems": [
    "Verif.Props.c41_in_order_partial",
    "Verif.Props.c41_standard_sizes",
    "Verif.Props.c42_stream_partial",
    "Verif.Props.c41_statement_violated"
   ],
   "note": "False of the code from 16 segments on (segment numbers wrap at 15, proved with a 2055 octet N-PDU over N201-U 140); proved up to 15 segments, which covers every N-PDU of the standard, from any receiver state."
  },
  {
   "property": "C42",
   "status": "partial",
   "theorems": [
    "Verif.Props.c42_any_order_partial",
    "Verif.Props.c42_stream_partial",
    "Verif.Props.c42_statement_violated"
   ],
   "note": "As C41, with any order behind the first segment."
  },
  {
   "property": "C43",
   "status": "partial",
   "theorems": [
    "Verif.Props.c43_one_npdu_partial",
    "Verif.Props.c43_provenance",
    "Verif.Props.c43_statement_violated"
   ],
   "note": "The N-PDU number is not compared, so segments of two N-PDUs can be mixed (proved); provenance of every delivery proved for all histories."
  },
  {
   "property": "C44",
   "status": "partial",
   "theorems": [
    "Verif.Props.c44_duplicates_partial",
    "Verif.Props.c44_single_twice",
    "Verif.Props.c44_statement_violated"
   ],
   "note": "A repeated segment before completion appends zero octets (proved); late repetitions and an immediately repeated first segment proved harmless."
  },
  {
   "property": "C45",
   "status": "partial",
   "theorems": [
    "Verif.Props.c45_receive_safe_partial",
    "Verif.Props.c45_statement_violated",
    "Verif.Props.c45_more_short_violated",
    "Verif.Props.c45_overrun_violated"
   ],
   "note": "Three exceptions proved: empty payload, first segment of three octets, more than 65279 octets collected; proved safe otherwise for all histories."
  },
  {
   "property": "C68",
   "status": "partial",
   "theorems": [
    "Verif.Props.c68_numbers_partial",
    "Verif.Props.c68_numbers_distinct",
    "Verif.Props.c68_statement_violated"
   ],
   "note": "The code counts modulo 4095, number 4095 is never used (proved)."
  },
  {
   "property": "C46",
   "status": "partial",
   "theorems": [
    "Verif.Props.c46_coding",
    "Verif.Props.c46_decoding",
    "Verif.Props.c46_roundtrip_partial",
    "Verif.Props.c46_rohc_violated",
    "Verif.Props.c46_v44_violated",
    "Verif.Props.c46_statement_violated"
   ],
   "note": "Coding proved in full; decoding loses ROHC profiles when there are 1 to 15 of them and does not understand V.44 dictionaries of 256 to 264 code words (proved)."
  },
  {
   "property": "C47",
   "status": "partial",
   "theorems": [
    "Verif.Props.c47_answer_partial",
    "Verif.Props.c47_crafted_violated",
    "Verif.Props.c47_long_answer_violated",
    "Verif.Props.c47_statement_violated"
   ],
   "note": "Crafted blocks of 2, 3 and 6 octets read out of bounds or abort, and legal proposals whose answer is longer than 256 octets overflow the buffer (proved); proved safe, with the standard's answer, for all other legal proposals."
  },
  {
   "property": "C48",
   "status": "partial",
   "theorems": [
    "Verif.Props.c48_well_kept",
    "Verif.Props.c48_no_abort",
    "Verif.Props.c48_proposals_partial",
    "Verif.Props.c48_statement_violated"
   ],
   "note": "Bookkeeping proved for all histories of arbitrary octets; a header compression field without algorithm deletes the data compression entity of the same number (proved)."
  },
  {
   "property": "C69",
   "status": "partial",
   "theorems": [
    "Verif.Props.c69_works_partial",
    "Verif.Props.c69_violated",
    "Verif.Props.c69_statement_violated"
   ],
   "note": "256 RFC 1144 slots and proposals without parameters give entities without compressor (proved); proved for all other legal proposals."
  },
  {
   "property": "C70",
   "status": "partial",
   "theorems": [
    "Verif.Props.c70_exchange_partial",
    "Verif.Props.c70_first_partial",
    "Verif.Props.c70_flag_violated",
    "Verif.Props.c70_second_violated",
    "Verif.Props.c70_statement_violated"
   ],
   "note": "Does not hold if the asking side's own accept flag is off, nor for a second negotiation, because the asking side forgets its entities first (proved); proved otherwise for all proposals."
  },
  {
   "property": "C49",
   "status": "proved",
   "theorems": [
    "Verif.Props.c49_entities"
   ],
   "note": "For all histories of activations, deactivations, TLLI changes to unused TLLIs and XID exchanges."
  },
  {
   "property": "C71",
   "status": "partial",
   "theorems": [
    "Verif.Props.c71_confirmation_partial",
    "Verif.Props.c71_confirmation_violated"
   ],
   "note": "Violated when two NSAPIs share a SAPI: the confirmation goes to the lower NSAPI (proved); proved for the lowest NSAPI of a SAPI."
  },
  {
   "property": "C72",
   "status": "partial",
   "theorems": [
    "Verif.Props.c72_sapi_partial",
    "Verif.Props.c72_sapi_violated"
   ],
   "note": "Violated when an active NSAPI is activated again with another SAPI (proved); proved for NSAPIs not active before."
  },
  {
   "property": "C55",
   "status": "partial",
   "theorems": [
    "Verif.Props.c55_encoder_partial",
    "Verif.Props.c55_encoder_violated"
   ],
   "note": "The exact set of rates encoded correctly is proved; 16.1-17, 129-130, 258-260 and 504-1600 Mbit/s are encoded wrongly (proved)."
  },
  {
   "property": "C56",
   "status": "partial",
   "theorems": [
    "Verif.Props.c56_decoder_partial",
    "Verif.Props.c56_profile_partial",
    "Verif.Props.c56_profile_violated"
   ],
   "note": "Lengths 14 and 18 make the decoder read outside the buffer and length 5 built by the encoder is refused (proved, exact); the round trip is proved for all other profiles."
  },
  {
   "property": "C73",
   "status": "partial",
   "theorems": [
    "Verif.Props.c73_decoder_partial",
    "Verif.Props.c73_absent",
    "Verif.Props.c73_decoder_violated"
   ],
   "note": "The exact set of octets decoded correctly is proved; 576 kbit/s to 8.6 Mbit/s and 0 kbit/s are decoded wrongly (proved)."
  },
  {
   "property": "C74",
   "status": "partial",
   "theorems": [
    "Verif.Props.c74_delay_partial",
    "Verif.Props.c74_delay_violated"
   ],
   "note": "The encoder is proved right; the decoder is wrong below 200 ms (proved)."
  },
  {
   "property": "C75",
   "status": "partial",
   "theorems": [
    "Verif.Props.c75_order_partial",
    "Verif.Props.c75_order_violated"
   ],
   "note": "Uplink and downlink extension octets are swapped (proved); proved when no extension is needed or both directions are equal."
  },
  {
   "property": "C76",
   "status": "partial",
   "theorems": [
    "Verif.Props.c76_encode_partial",
    "Verif.Props.c76_decode_partial",
    "Verif.Props.c76_violated"
   ],
   "note": "An IPv4v6 address with only its IPv6 half is decoded from the wrong octets (proved); proved for all other addresses."
  },
  {
   "property": "C77",
   "status": "partial",
   "theorems": [
    "Verif.Props.c77_partial",
    "Verif.Props.c77_violated",
    "Verif.Props.c77_violated_ipv6"
   ],
   "note": "A PDP address element of length 0 or 1, and an IPv4v6 element with an IPv6 address only, make the decoder read outside the message (proved); REJECT always safe, ACCEPT safe otherwise."
  },
  {
   "property": "C78",
   "status": "proved",
   "theorems": [
    "Verif.Props.c78_request",
    "Verif.Props.c78_apn",
    "Verif.Props.c78_context"
   ],
   "note": ""
  },
  {
   "property": "C50",
   "status": "partial",
   "theorems": [
    "Verif.Props.c50_partial",
    "Verif.Props.c50_violated",
    "Verif.Props.c50_violated_cause0"
   ],
   "note": "A refusal by GMM or a release is never reported, and a REJECT with cause 0 is reported as accepted (both proved); never two answers, no unsolicited answer in any history, and exactly one answer if no such event meets the procedure."
  },
  {
   "property": "C51",
   "status": "proved",
   "theorems": [
    "Verif.Props.c51_bounded",
    "Verif.Props.c51_expiry",
    "Verif.Props.c51_ends"
   ],
   "note": ""
  },
  {
   "property": "C79",
   "status": "partial",
   "theorems": [
    "Verif.Props.c79_partial",
    "Verif.Props.c79_step",
    "Verif.Props.c79_violated"
   ],
   "note": "The length of the granted QoS is not stored, the user sees it cut to the length asked for (proved); spare bits are not masked.  Proved when the lengths agree and spare bits are 0."
  },
  {
   "property": "C80",
   "status": "partial",
   "theorems": [
    "Verif.Props.c80_partial",
    "Verif.Props.c80_violated"
   ],
   "note": "A refused ACCEPT still overwrites SAPI, QoS and priority of an active context (proved); the procedure itself is proved untouched."
  },
  {
   "property": "C81",
   "status": "partial",
   "theorems": [
    "Verif.Props.c81_partial",
    "Verif.Props.c81_violated",
    "Verif.Props.c81_violated_ti"
   ],
   "note": "The identifier of the mobile station is used instead of the session identifier, and all transaction identifiers are 0 (proved); the content of the message is proved right."
  },
  {
   "property": "C82",
   "status": "proved",
   "theorems": [
    "Verif.Props.c82_status"
   ],
   "note": ""
  },
  {
   "property": "C83",
   "status": "partial",
   "theorems": [
    "Verif.Props.c83_partial",
    "Verif.Props.c83_violated"
   ],
   "note": "A release by GMM drops the context silently (proved); proved for the only other way."
  },
  {
   "property": "C84",
   "status": "partial",
   "theorems": [
    "Verif.Props.c84_partial",
    "Verif.Props.c84_violated"
   ],
   "note": "Protocol configuration options of 254 octets overflow the primitive (proved; see also C77); proved safe for all histories otherwise."
  },
  {
   "property": "C52",
   "status": "proved",
   "theorems": [
    "Verif.Props.c52_terminate"
   ],
   "note": "The bound is 4 expiries for attach and 256 for an update; see C86 for the number the standard asks for."
  },
  {
   "property": "C53",
   "status": "partial",
   "theorems": [
    "Verif.Props.c53_violated",
    "Verif.Props.c53_violated_reject",
    "Verif.Props.c53_answered_partial",
    "Verif.Props.c53_accept_partial"
   ],
   "note": "An update given up or rejected with cause 13, 15 or 25 leaves the link suspended (proved); proved for the histories in which every update is answered otherwise."
  },
  {
   "property": "C54",
   "status": "partial",
   "theorems": [
    "Verif.Props.c54_violated",
    "Verif.Props.c54_stored",
    "Verif.Props.c54_right_partial",
    "Verif.Props.c54_sent_partial"
   ],
   "note": "The octets are shifted wrongly: right exactly for the 256 signatures below 256 (proved); a stored signature is sent as it is."
  },
  {
   "property": "C85",
   "status": "proved",
   "theorems": [
    "Verif.Props.c85_decode",
    "Verif.Props.c85_floor",
    "Verif.Props.c85_monotone",
    "Verif.Props.c85_exact"
   ],
   "note": ""
  },
  {
   "property": "C86",
   "status": "partial",
   "theorems": [
    "Verif.Props.c86_violated",
    "Verif.Props.c86_violated_rau",
    "Verif.Props.c86_fourth_partial"
   ],
   "note": "Attach ends with the fourth expiry; the counter of updates is not reset, so later ones go on for 255 expiries (both proved)."
  },
  {
   "property": "C87",
   "status": "partial",
   "theorems": [
    "Verif.Props.c87_violated",
    "Verif.Props.c87_violated_detach",
    "Verif.Props.c87_violated_refused",
    "Verif.Props.c87_solicited_partial",
    "Verif.Props.c87_answered_partial"
   ],
   "note": "Refused primitives, and a detach while attaching, lose the answer (proved); no unasked confirmation in any history, and exactly one otherwise."
  },
  {
   "property": "C88",
   "status": "partial",
   "theorems": [
    "Verif.Props.c88_violated",
    "Verif.Props.c88_truthful_partial"
   ],
   "note": "ATTACH REJECT with cause 0 is confirmed to SM as accepted (proved); proved in all other cases."
  },
  {
   "property": "C89",
   "status": "partial",
   "theorems": [
    "Verif.Props.c89_violated",
    "Verif.Props.c89_attach_partial",
    "Verif.Props.c89_rau_partial",
    "Verif.Props.c89_detach_violated"
   ],
   "note": "DETACH REQUEST has its type in the wrong half octet and an element too many, and the optional part of ROUTING AREA UPDATE REQUEST is unreadable, for all parameters (proved); ATTACH REQUEST is proved right."
  },
  {
   "property": "C90",
   "status": "partial",
   "theorems": [
    "Verif.Props.c90_violated",
    "Verif.Props.c90_violated_always"
   ],
   "note": "The element is always empty (proved for all parameters)."
  },
  {
   "property": "C91",
   "status": "proved",
   "theorems": [
    "Verif.Props.c91_digits",
    "Verif.Props.c91_identity"
   ],
   "note": ""
  },
  {
   "property": "C38",
   "status": "partial",
   "theorems": [
    "Verif.Props.c38_violated",
    "Verif.Props.c38_violated_unassigned",
    "Verif.Props.c38_found_partial",
    "Verif.Props.c38_assign_partial"
   ],
   "note": "Nothing keeps a mobile station from being given another one's TLLI, and the value that stands for no TLLI finds an entity (both proved); proved for all histories without these."
  },
  {
   "property": "C92",
   "status": "partial",
   "theorems": [
    "Verif.Props.c92_violated",
    "Verif.Props.c92_violated_detached",
    "Verif.Props.c92_timers_partial",
    "Verif.Props.c92_cycle_partial"
   ],
   "note": "Without optional elements in ATTACH ACCEPT no timer ever runs, and the periodic timer can run in a mobile station that is not registered (proved); mutual exclusion holds in all histories, and the cycle of the timers once a READY timer is assigned."
  },
  {
   "property": "C93",
   "status": "partial",
   "theorems": [
    "Verif.Props.c93_violated",
    "Verif.Props.c93_violated_unasked",
    "Verif.Props.c93_violated_lost",
    "Verif.Props.c93_accept_partial"
   ],
   "note": "A DETACH ACCEPT nobody asked for is confirmed and takes the TLLI away, a power-off or a lost state loses the confirmation (proved); proved for a DETACH ACCEPT while detaching."
  },
  {
   "property": "C94",
   "status": "partial",
   "theorems": [
    "Verif.Props.c94_stuck",
    "Verif.Props.c94_violated",
    "Verif.Props.c94_poweroff_partial"
   ],
   "note": "Nothing bounds the wait for DETACH ACCEPT: no timer runs (proved for all sequences of timer events); power-off detaching ends at once."
  },
  {
   "property": "C95",
   "status": "partial",
   "theorems": [
    "Verif.Props.c95_violated",
    "Verif.Props.c95_violated_poweroff",
    "Verif.Props.c95_null_partial"
   ],
   "note": "Disabling has an effect only in one state (proved); proved for an entity that is switched off."
  },
  {
   "property": "C96",
   "status": "partial",
   "theorems": [
    "Verif.Props.c96_violated",
    "Verif.Props.c96_violated_always",
    "Verif.Props.c96_new_ptmsi_partial"
   ],
   "note": "Without a new P-TMSI in ATTACH ACCEPT the mobile station is never registered, however often it tries, because RLC/MAC made the entity on the fly and refuses the assignment (proved for all P-TMSIs and sequences of attempts); proved with a new P-TMSI."
  },
  {
   "property": "C97",
   "status": "partial",
   "theorems": [
    "Verif.Props.c97_violated",
    "Verif.Props.c97_violated_always",
    "Verif.Props.c97_violated_again"
   ],
   "note": "No DETACH ACCEPT has an effect on RLC/MAC (proved for all states and messages), and attaching again with the same P-TMSI fails."
  },
  {
   "property": "C98",
   "status": "partial",
   "theorems": [
    "Verif.Props.c98_violated",
    "Verif.Props.c98_violated_ptmsi",
    "Verif.Props.c98_current_partial",
    "Verif.Props.c98_tlli_partial"
   ],
   "note": "After a detach ATTACH REQUEST is sent under no TLLI (proved); in all histories the TLLI is that of creation, the local one of the P-TMSI in force, or none."
  },
  {
   "property": "C99",
   "status": "proved",
   "theorems": [
    "Verif.Props.c99_downlink",
    "Verif.Props.c99_uplink",
    "Verif.Props.c99_immAss",
    "Verif.Props.c99_si13",
    "Verif.Props.c99_p1",
    "Verif.Props.c99_p2",
    "Verif.Props.c99_raCap"
   ],
   "note": "By a verified static check of the descriptor tables, evaluated in the kernel on all tables of the code."
  },
  {
   "property": "C100",
   "status": "partial",
   "theorems": [
    "Verif.Props.c100_violated",
    "Verif.Props.c100_violated_downlink",
    "Verif.Props.c100_violated_uplink",
    "Verif.Props.c100_violated_rest",
    "Verif.Props.c100_downlink_partial",
    "Verif.Props.c100_uplink_partial",
    "Verif.Props.c100_rest_partial"
   ],
   "note": "False of the code for ten downlink and four uplink message types and two kinds of rest octets, each with a witness; proved for all others."
  },
  {
   "property": "C101",
   "status": "partial",
   "theorems": [
    "Verif.Props.c101_violated",
    "Verif.Props.c101_partial",
    "Verif.Props.c101_bits_partial"
   ],
   "note": "A system information 13 that announces a PBCCH aborts the process (proved); no abort otherwise."
  },
  {
   "property": "C102",
   "status": "partial",
   "theorems": [
    "Verif.Props.c102_partial",
    "Verif.Props.c102_violated"
   ],
   "note": "Proved for every message that announces no PBCCH, with or without a GPRS mobile allocation; a message announcing a PBCCH has no cell options and yet sets the timers, T3192 from the ARFCN (proved)."
  },
  {
   "property": "C103",
   "status": "partial",
   "theorems": [
    "Verif.Props.c103_violated",
    "Verif.Props.c103_partial"
   ],
   "note": "An answer with reference number 255 is used by an entity that was never challenged (proved); proved in all histories for the reference numbers that exist."
  },
  {
   "property": "C104",
   "status": "partial",
   "theorems": [
    "Verif.Props.c104_violated",
    "Verif.Props.c104_partial"
   ],
   "note": "T3316 of an earlier authentication discards the new challenge (proved); proved from all states when no other authentication event intervenes and the neighbours accept."
  },
  {
   "property": "C105",
   "status": "partial",
   "theorems": [
    "Verif.Props.c105_violated",
    "Verif.Props.c105_partial"
   ],
   "note": "Switching off while deregistered releases the session again (proved); proved in all histories for every other event."
  },
  {
   "property": "C39",
   "status": "proved",
   "theorems": [
    "Verif.Props.c39_imm_ass"
   ],
   "note": ""
  },
  {
   "property": "C106",
   "status": "partial",
   "theorems": [
    "Verif.Props.c106_violated",
    "Verif.Props.c106_violated_second",
    "Verif.Props.c106_partial",
    "Verif.Props.c106_type2_partial"
   ],
   "note": "The TMSI ffffffff pages a mobile station without P-TMSI, and a first identity of another type with packet paging indication loses the page of the second (both proved); proved otherwise, for requests without group call information."
  },
  {
   "property": "C107",
   "status": "partial",
   "theorems": [
    "Verif.Props.c107_violated",
    "Verif.Props.c107_reference_ignored",
    "Verif.Props.c107_partial"
   ],
   "note": "Every immediate assignment, even of a circuit switched channel, makes RLC/MAC leave the common control channel, and the first waiting mobile station takes it: the request reference is ignored (both proved).  At most one uplink TBF changes, and only one that waits."
  },
  {
   "property": "C108",
   "status": "proved",
   "theorems": [
    "Verif.Props.c108_plain",
    "Verif.Props.c108_hopping",
    "Verif.Props.c108_uplink"
   ],
   "note": "Spare bits of the channel type octet are not constrained."
  },
  {
   "property": "C109",
   "status": "partial",
   "theorems": [
    "Verif.Props.c109_violated",
    "Verif.Props.c109_partial"
   ],
   "note": "A starting time that is none (T3 above 50) aborts the process while a mobile station waits (proved; for SI13 see C101); nothing else does."
  },
  {
   "property": "C31",
   "status": "partial",
   "theorems": [
    "Verif.Props.c31_rts_good_partial",
    "Verif.Props.c31_shared_usf_violated"
   ],
   "note": "When two TBFs of the context are given the same USF, the first one's dummy block goes before the second one's data (proved); everything else is proved for all histories, and data before dummy blocks when the block has one owner."
  },
  {
   "property": "C110",
   "status": "partial",
   "theorems": [
    "Verif.Props.c110_no_abort_partial",
    "Verif.Props.c110_new_tbf_violated",
    "Verif.Props.c110_freed_entity_violated"
   ],
   "note": "Asking for a new TBF in place of the one being released fails an assertion when the polled block carries another USF, and the reservation of a freed entity is used (both proved); no abort in all histories without these two and the assertion of C27."
  },
  {
   "property": "C111",
   "status": "partial",
   "theorems": [
    "Verif.Props.c111_polls_answered_partial",
    "Verif.Props.c111_reserved_until_due_partial",
    "Verif.Props.c111_assigned_twice_violated"
   ],
   "note": "A second assignment that takes effect at once makes the station send a dummy block instead of the acknowledgement asked for with the first (proved); proved for all histories when the poll is still due."
  },
  {
   "property": "C112",
   "status": "partial",
   "theorems": [
    "Verif.Props.c112_reservations_live_partial",
    "Verif.Props.c112_in_turn_partial",
    "Verif.Props.c112_no_stale_partial",
    "Verif.Props.c112_freed_entity_violated"
   ],
   "note": "The reservation for the answer to a downlink assignment outlives the entity (proved); proved for all other reservations, and for all in histories that give up no entity that owes an answer."
  },
  {
   "property": "C113",
   "status": "partial",
   "theorems": [
    "Verif.Props.c113_begins_partial",
    "Verif.Props.c113_timeslot_violated"
   ],
   "note": "Only indications for timeslot 0 are compared with the starting time, whatever timeslots were assigned (proved): a downlink TBF that has to begin later does not begin when no indication for timeslot 0 comes in that very frame.  Proved: at once without a (later) starting time; otherwise not before, through every history without another assignment, and then on timeslot 0."
  },
  {
   "property": "C114",
   "status": "partial",
   "theorems": [
    "Verif.Props.c114_resources_partial",
    "Verif.Props.c114_stale_timeslot_violated",
    "Verif.Props.c114_no_tfi_violated"
   ],
   "note": "An IMMEDIATE ASSIGNMENT that comes while another assignment waits keeps the timeslots of that one, and an assignment without TFI gives the TBF the TFI 255 (both proved); proved for all histories otherwise."
  },
  {
   "property": "C115",
   "status": "partial",
   "theorems": [
    "Verif.Props.c115_release_partial",
    "Verif.Props.c115_new_tbf_violated",
    "Verif.Props.c115_other_entity_violated"
   ],
   "note": "The timer is not stopped when a new TBF begins and looks at one entity only, so the channel is released under a TBF (both proved).  Proved: only that timer releases the channel, and after the last TBF of an entity it always runs until it does."
  },
  {
   "property": "C116",
   "status": "partial",
   "theorems": [
    "Verif.Props.c116_addressed_partial",
    "Verif.Props.c116_tfi_zero_violated",
    "Verif.Props.c116_no_tlli_violated"
   ],
   "note": "An uplink TBF that has no resources yet takes messages for uplink TFI 0, and an entity without old TLLI takes those for the TLLI of all ones (both proved); proved for all histories otherwise."
  },
  {
   "property": "C117",
   "status": "proved",
   "theorems": [
    "Verif.Props.c117_one_entity"
   ],
   "note": ""
  },
  {
   "property": "C118",
   "status": "partial",
   "theorems": [
    "Verif.Props.c118_encoding_exact_partial",
    "Verif.Props.c118_encoding_starts_partial",
    "Verif.Props.c118_violated"
   ],
   "note": "The bit that ends a list of structures is not counted as written, so the padding behind it is one bit off (proved with PACKET PSI STATUS).  Proved: exact bits for every message without such lists, and the beginning of the block for all."
  },
  {
   "property": "C119",
   "status": "partial",
   "theorems": [
    "Verif.Props.c119_round_trip_partial",
    "Verif.Props.c119_violated"
   ],
   "note": "A message that does not fit the block is encoded without error and loses its last elements (proved with PACKET CELL CHANGE NOTIFICATION).  Proved for every message that fits."
  },
  {
   "property": "C120",
   "status": "proved",
   "theorems": [
    "Verif.Props.c120_sent_messages",
    "Verif.Props.c120_bitmap"
   ],
   "note": ""
  },
  {
   "property": "C121",
   "status": "partial",
   "theorems": [
    "Verif.Props.c121_every_type_partial",
    "Verif.Props.c121_confined_partial",
    "Verif.Props.c121_violated"
   ],
   "note": "Encoding a PACKET PAUSE reads 8 octets of a member of 6, whatever its contents (proved).  Proved: all other message types, and every structure whose message fits."
  },
  {
   "property": "C122",
   "status": "proved",
   "theorems": [
    "Verif.Props.c122_downlink_understood"
   ],
   "note": "For every structure with a layout (Spec/CsnLayout); tables with elements relative to the padding pattern (L/H) have none, and no message of this protocol has them."
  },
  {
   "property": "C123",
   "status": "proved",
   "theorems": [
    "Verif.Props.c123_downlink_assignment",
    "Verif.Props.c123_uplink_assignment",
    "Verif.Props.c123_uplink_ack"
   ],
   "note": ""
  },
  {
   "property": "C124",
   "status": "partial",
   "theorems": [
    "Verif.Props.c124_violated",
    "Verif.Props.c124_other_tfi_partial"
   ],
   "note": "The TLLI in a PACKET UPLINK ACK/NACK is not compared with that of the station: an acknowledgement for another station that got the same resources ends contention resolution (proved).  Proved: acknowledgements for other TFIs leave the station alone."
  },
  {
   "property": "C125",
   "status": "partial",
   "theorems": [
    "Verif.Props.c125_egprs_violated",
    "Verif.Props.c125_unused_violated",
    "Verif.Props.c125_unused_types_partial"
   ],
   "note": "An acknowledgement in EGPRS format is taken for one in GPRS format (proved); and messages of unused types can make the decoder store outside a member, see C100 (proved).  Proved: all other unused types are ignored."
  },
  {
   "property": "C126",
   "status": "proved",
   "theorems": [
    "Verif.Props.c126"
   ],
   "note": ""
  },
  {
   "property": "C127",
   "status": "partial",
   "theorems": [
    "Verif.Props.c127_violated",
    "Verif.Props.c127_partial"
   ],
   "note": "The width of codewords is limited to an eighth of the size of the dictionary (64 bits or more) instead of its logarithm, so a received codeword can index beyond the 4096 entries (proved, nine octets and default parameters).  Dictionary sizes up to 65535 are accepted, but there are 4096 entries.  Proved: with at most 4096 entries there is no fault as long as the width has not been raised beyond 12 bits."
  },
  {
   "property": "C128",
   "status": "partial",
   "theorems": [
    "Verif.Props.c128_violated",
    "Verif.Props.c128_partial"
   ],
   "note": "The buffer is not checked: 800 equal octets are compressed to 70 octets and written into a buffer of 764 (proved).  Proved: exactly the packets that fit are expanded."
  },
  {
   "property": "C129",
   "status": "partial",
   "theorems": [
    "Verif.Props.c129_partial",
    "Verif.Props.c129_violated",
    "Verif.Props.c129_violated_marks"
   ],
   "note": "The code violates the property: after a segment with the URG flag, a segment without it that is sent as SPECIAL_D or SPECIAL_I comes out with the URG flag, because slhc_uncompress clears the flag only in the general case (c129_violated); changes of the ECE, CWR and reserved TCP bits and of the reserved IP bit are neither compared by the sender nor sent, so they are lost (c129_violated_marks). SPECIAL_I takes the length of the data as a signed number of 16 bits. Proved: without urgent segments, with the same value of these bits in all segments of a connection and at most 32767 octets of data per segment, every sequence of well-formed packets is carried unchanged, for every number of slots."
  },
  {
   "property": "C130",
   "status": "partial",
   "theorems": [
    "Verif.Props.c130_partial",
    "Verif.Props.c130_violated"
   ],
   "note": "Violated for the same packets as C129. Proved for the packets of C129's partial theorem and every pattern of losses."
  },
  {
   "property": "C131",
   "status": "partial",
   "theorems": [
    "Verif.Props.c131_partial",
    "Verif.Props.c131_violated",
    "Verif.Props.c131_violated_empty"
   ],
   "note": "The code violates the property: slhc_compress reads the TCP header without checking that the packet is long enough (20 octets with IHL 15), and rfc1144_compress reads the first octet of an empty packet. Proved for all sequences of packets with at least one octet in which the IP header has at least 20 octets and 20 octets follow it, if it says TCP and not a fragment. The buffer new_seq of 16 octets (at most 15 are used) is not modelled."
  },
  {
   "property": "C132",
   "status": "partial",
   "theorems": [
    "Verif.Props.c132_partial",
    "Verif.Props.c132_violated"
   ],
   "note": "The code violates the property: a stored header with options has up to 120 octets, and a compressed packet of four octets gets a buffer of 104. Proved for all sequences of packets without compressed packets of three, four or five octets."
  },
  {
   "property": "C133",
   "status": "partial",
   "theorems": [
    "Verif.Props.c133_partial",
    "Verif.Props.c133_violated"
   ],
   "note": "The code violates the property: a slot without header is used as a header of zeros with length 0, and octets that were never sent are delivered. Proved: numbers of slots that do not exist are refused after every history."
  },
  {
   "property": "C134",
   "status": "partial",
   "theorems": [
    "Verif.Props.c134_partial",
    "Verif.Props.c134_violated"
   ],
   "note": "The code violates the property: a compressed packet of fewer than three octets is refused without a trace, and the next packet is applied to the wrong state. Proved if the refused packet was a full header (whatever was wrong with it), or a compressed packet of at least three octets for a slot that does not exist."
  },
  {
   "property": "C135",
   "status": "partial",
   "theorems": [
    "Verif.Props.c135_partial",
    "Verif.Props.c135_violated"
   ],
   "note": "The code violates the property: with S0-1 = 255 slhc_init(256) returns a null pointer, which is not checked and is used for the first packet. Proved for all smaller values."
  },
  {
   "property": "C136",
   "status": "proved",
   "theorems": [
    "Verif.Props.c136_payloads"
   ],
   "note": "Reading starts from a buffer of exactly the size of a payload."
  },
  {
   "property": "C137",
   "status": "proved",
   "theorems": [
    "Verif.Props.c137_indicator"
   ],
   "note": "The EGPRS headers themselves are not written by this version of the code (write_ul_data_header returns -ENOTSUP for them)."
  },
  {
   "property": "C138",
   "status": "proved",
   "theorems": [
    "Verif.Props.c138_parser_exact"
   ],
   "note": "Fewer than 17 octets, of which no EGPRS payload has so few, would let the parser read one octet behind the payload."
  },
  {
   "property": "C139",
   "status": "partial",
   "theorems": [
    "Verif.Props.c139_violated",
    "Verif.Props.c139_partial"
   ],
   "note": "The code applies the table for changes between MCS-6 and MCS-9 to the scheme that would come next, not to the one last used: an MCS-9 block sent with P1 is sent again with MCS-6 and P2 instead of P1 (proved). Proved for all other transmissions."
  },
  {
   "property": "C140",
   "status": "partial",
   "theorems": [
    "Verif.Props.c140_violated",
    "Verif.Props.c140_partial"
   ],
   "note": "When MCS-4 is commanded after the first half of an MCS-4 block was sent with MCS-1, the second half is sent with MCS-4, followed by 22 octets that are no data (proved). Proved for all other schemes, and for MCS-4 without resegmentation."
  },
  {
   "property": "C141",
   "status": "partial",
   "theorems": [
    "Verif.Props.c141_violated",
    "Verif.Props.c141_violated_others",
    "Verif.Props.c141_partial",
    "Verif.Props.c141_partial_ms"
   ],
   "note": "A GRR-DATA.ind to LLC, LL primitives SNDCP does not take and SNSM primitives other than ACTIVATE/DEACTIVATE.ind are freed twice; SN-DATA.req for an existing entity, SMREG primitives other than PDP-ACTIVATE.req (such as the documented PDP-DEACTIVATE.req), SNSM primitives SM does not take and unsupported GMMREG primitives are read after they were freed; unsupported GRR and GMMRR requests to RLC/MAC are never freed (all proved, with the exact list). Proved for every other primitive."
  },
  {
   "property": "C142",
   "status": "partial",
   "theorems": [
    "Verif.Props.c142_violated",
    "Verif.Props.c142_partial",
    "Verif.Props.c142_partial_rest"
   ],
   "note": "SM's callback to its user is the exception: the primitive is freed also when the callback returned 1 (proved). LLC's callback up passes 1 on to its caller, which ignores it. Proved for all the others."
  },
  {
   "property": "C143",
   "status": "partial",
   "theorems": [
    "Verif.Props.c143_violated",
    "Verif.Props.c143_partial",
    "Verif.Props.c143_at_any_time"
   ],
   "note": "Composition of C40/C41, C12/C57 and C21. When 63 consecutive blocks of a TBF are lost before the next arrives, the packets in the last block are never delivered (proved with 64 packets). Proved for all other histories. The SNDCP entities are given, see C49 for finding them; compression is off."
  },
  {
   "property": "C144",
   "status": "partial",
   "theorems": [
    "Verif.Props.c144_violated",
    "Verif.Props.c144_partial"
   ],
   "note": "Composition of C40/C41, C12/C57 and C19. A packet whose frame fills the rest of the last block of a TBF behind another frame is lost (proved). Proved otherwise. The SNDCP entities are given; compression is off."
  },
  {
   "property": "C145",
   "status": "proved",
   "theorems": [
    "Verif.Props.c145_reliable"
   ],
   "note": "The network's receiver and the link are specified in Spec/UlLink; GPRS coding schemes; the coding scheme, countdown value and TLLI of each block are arbitrary. Timers and counters that give up the TBF (T3180, T3182, N3104) are left out."
  },
  {
   "property": "C146",
   "status": "proved",
   "theorems": [
    "Verif.Props.c146_completes"
   ],
   "note": "Every round without loss either completes the transfer or, from the second on, reduces the octets left plus the blocks the network misses. The countdown value is supposed right (0 exactly in the block that takes the last data); see C23 for when the code's is."
  },
  {
   "property": "C147",
   "status": "partial",
   "theorems": [
    "Verif.Props.c147_violated",
    "Verif.Props.c147_partial",
    "Verif.Props.c147_at_any_time"
   ],
   "note": "As C144, but with losses and delays in both directions: combines C145 and C19 with the path through SNDCP and LLC. A packet whose frame fills the rest of the last block of a TBF behind another frame is lost although the mobile station is told the TBF is complete (proved). Proved otherwise."
  },
  {
   "property": "C148",
   "status": "partial",
   "theorems": [
    "Verif.Props.c148_violated",
    "Verif.Props.c148_partial",
    "Verif.Props.c148_reliable_partial"
   ],
   "note": "With two timeslots the code counts down too fast (C23): a frame of 90 octets in CS-1 gets countdown values 2, 1, 0 with 30 octets left, which are never sent, although the transfer is acknowledged as complete; the network puts together a frame of 60 octets (proved). Proved for one timeslot per TBF, unless two or more frames fill the last block exactly (C19); with one timeslot nothing fails and every TBF comes to its end in any case. Frames are of one radio priority; timers that give up the TBF are left out."
  },
  {
   "property": "C149",
   "status": "partial",
   "theorems": [
    "Verif.Props.c149_violated",
    "Verif.Props.c149_partial"
   ],
   "note": "C148 with the path through SNDCP and LLC. With two timeslots an N-PDU of 80 octets is lost although the TBF is complete (proved). Proved for one timeslot per TBF, unless two or more frames fill the last block exactly."
  },
  {
   "property": "C150",
   "status": "proved",
   "theorems": [
    "Verif.Props.c150_downlink_reliable"
   ],
   "note": "The network's sender of TS 44.060 with its window of 64 blocks against the model of the receiving TBF and its reports; first-in-first-out links with losses in both directions."
  },
  {
   "property": "C151",
   "status": "partial",
   "theorems": [
    "Verif.Props.c151_downlink_ends_violated",
    "Verif.Props.c151_downlink_ends_partial"
   ],
   "note": "When the first 63 blocks of a window get lost and the 64th arrives, V(R) is not raised but the block is marked as received; once the other 63 have come, the mobile station reports block 63 as missing and ignores it whenever it is sent again: the transfer never ends (proved). Proved for a network that keeps to 63 or fewer blocks, with one round for each block not acknowledged. Timers that give up the TBF are left out."
  },
  {
   "property": "C152",
   "status": "proved",
   "theorems": [
    "Verif.Props.c152_downlink_packets"
   ],
   "note": "C150 with the path through LLC and SNDCP. Unlike C143 this follows the network's sender by the mobile station's own reports; that a TBF may never get complete is C151. The SNDCP entities are given; compression is off."
  },
  {
   "property": "C153",
   "status": "partial",
   "theorems": [
    "Verif.Props.c153_violated",
    "Verif.Props.c153_never",
    "Verif.Props.c153_standby_partial"
   ],
   "note": "In DETACH ACCEPT, ROUTING AREA UPDATE REJECT and P-TMSI REALLOCATION COMMAND the element is in the lower half octet; gmm.c:1020, 1207 and 1287 look at the upper half, which is spare: no such message ever stops the READY timer (proved for all of them). Proved for the other messages, for the values 0 and 1 in ATTACH ACCEPT, ROUTING AREA UPDATE ACCEPT and AUTHENTICATION AND CIPHERING REQUEST, where the code takes every value but 0 as a request."
  },
  {
   "property": "C154",
   "status": "partial",
   "theorems": [
    "Verif.Props.c154_violated",
    "Verif.Props.c154_signature_refused",
    "Verif.Props.c154_realloc_partial"
   ],
   "note": "gmm.c:1263 demands a length of exactly 15 octets, so that a command with the optional signature is refused by every mobile station without an answer (proved for all of them), and the code that reads the signature is never reached. Proved without signature."
  },
  {
   "property": "C155",
   "status": "partial",
   "theorems": [
    "Verif.Props.c155_violated",
    "Verif.Props.c155_partial"
   ],
   "note": "gmm_pdu.c:329 builds the failure with the message type of P-TMSI REALLOCATION COMPLETE, so that the network never sees AUTHENTICATION AND CIPHERING FAILURE. Proved: a request that is not refused goes to the SIM or is answered with RESPONSE; all else that is sent is that message with one of four causes under the TLLI, and leaves no challenge in force and T3316 stopped."
  },
  {
   "property": "C156",
   "status": "partial",
   "theorems": [
    "Verif.Props.c156_violated",
    "Verif.Props.c156_unattached",
    "Verif.Props.c156_detaching",
    "Verif.Props.c156_partial"
   ],
   "note": "The data of the messages are applied before the state is looked at: a mobile station that is not attached takes the P-TMSI of an ATTACH ACCEPT, tells LLC and RLC/MAC and sends ATTACH COMPLETE; one that is detaching becomes registered by ROUTING AREA UPDATE ACCEPT (both proved). Proved otherwise: state, counters, session and procedures are kept, nobody is told of a registration, and the result is an error."
  },
  {
   "property": "C157",
   "status": "partial",
   "theorems": [
    "Verif.Props.c157_violated",
    "Verif.Props.c157_violated_tlli",
    "Verif.Props.c157_partial",
    "Verif.Props.c157_keeps_partial"
   ],
   "note": "ATTACH ACCEPT and ROUTING AREA UPDATE ACCEPT with a malformed optional part have already replaced the routing area and timers when they are refused, and, if the MS identity is no IMEISV, also the P-TMSI and TLLI, of which LLC is not told (c157_violated_tlli); ROUTING AREA UPDATE REJECT takes effect even if it cannot be parsed. Proved for all other messages (c157_partial), and for all but ROUTING AREA UPDATE REJECT that at most the routing area, the P-TMSI signature and the two timers change, with ROUTING AREA UPDATE ACCEPT also the P-TMSI and the TLLI; the state, session, PDP contexts, keys and counters never do (c157_keeps_partial)."
  },
  {
   "property": "C158",
   "status": "proved",
   "theorems": [
    "Verif.Props.c158_independent"
   ],
   "note": ""
  },
  {
   "property": "C159",
   "status": "partial",
   "theorems": [
    "Verif.Props.c159_violated",
    "Verif.Props.c159_violated_attach",
    "Verif.Props.c159_partial",
    "Verif.Props.c159_nobody"
   ],
   "note": "The full statement (C159Statement) is refuted: an entity keeps its former P-TMSI and TLLI until the next allocation and the search takes the newest entity that matches either (gmm.c:229-260). Once the network has given a mobile station another P-TMSI and the first one to another station, messages, pages and requests for the latter, even a request to attach with its own IMSI, go to the former owner. Proved: the primitive reaches the right station when its name is no other station's former one, and primitives for nobody are refused without effect."
  },
  {
   "property": "C160",
   "status": "proved",
   "theorems": [
    "Verif.Props.c160_fresh"
   ],
   "note": ""
  },
  {
   "property": "C161",
   "status": "partial",
   "theorems": [
    "Verif.Props.c161_violated",
    "Verif.Props.c161_violated_poweroff",
    "Verif.Props.c161_enabled",
    "Verif.Props.c161_disable",
    "Verif.Props.c161_enable",
    "Verif.Props.c161_disabled_partial"
   ],
   "note": "The full statement (C161Statement) is refuted: the event that disables GPRS is permitted in GMM-DEREGISTERED only (gmm_ms_fsm.c:316) and the result of dispatching it is ignored, so a registered mobile station stays registered and goes on updating its routing area; and a detach for power-off leads from GMM-NULL to GMM-DEREGISTERED even while GPRS is disabled. Proved: while enabled no station is in GMM-NULL; disabling with all stations deregistered puts all into GMM-NULL, where nothing is sent until GPRS is enabled or a station detaches for power-off."
  },
  {
   "property": "C162",
   "status": "partial",
   "theorems": [
    "Verif.Props.c162_violated",
    "Verif.Props.c162_partial",
    "Verif.Props.c162_first_attach",
    "Verif.Props.c162_waiting",
    "Verif.Props.c162_again"
   ],
   "note": "GMM and LLC composed: the statement is false. After DETACH ACCEPT the TLLI of GMM is the value \"unassigned\" and LLC has freed its entity; the next attach sends ATTACH REQUEST under TLLI ffffffff, and the LLGMM-ASSIGN.req of its ATTACH ACCEPT names a TLLI that LLC does not know (or twice the value \"unassigned\"), so LLC refuses it, ATTACH COMPLETE is not sent and the mobile station is not registered (c162_violated, by attach - accept - detach - detach accept - attach - accept; c162_again for every such state). Proved for every reachable state in which LLC knows the TLLI and, if there is one, the old TLLI: ATTACH ACCEPT registers, ATTACH COMPLETE leaves in one UI frame, LLC knows the mobile station under its new names (c162_partial); this holds from the first ATTACH REQUEST on (c162_first_attach) and is kept by the other users of LLC, received LL-PDUs and T3310 (c162_waiting)."
  },
  {
   "property": "C163",
   "status": "partial",
   "theorems": [
    "Verif.Props.c163_violated",
    "Verif.Props.c163_partial",
    "Verif.Props.c163_never"
   ],
   "note": "SM and GMM composed: the statement is false. SM gives GMM the number of the mobile station as the session identifier of GMMSM-UNITDATA.req (sm.c:289-311) while GMM looks for an entity with that session (gmm_prim.c:647), and sessions are numbered from 0 in the order of the requests: the ACTIVATE PDP CONTEXT REQUEST of a mobile station whose number is not that of its session is dropped (c163_never: for every first request of a mobile station other than number 0). Proved for mobile station 0 and every NSAPI, QoS, P-TMSI and answer of the network: the request is sent under the new TLLI, the user is told and the context is active (c163_partial)."
  },
  {
   "property": "C164",
   "status": "partial",
   "theorems": [
    "Verif.Props.c164_violated",
    "Verif.Props.c164_partial",
    "Verif.Props.c164_asked"
   ],
   "note": "Refuted for the same reason: mobile stations 1 and 2 ask for NSAPIs 5 and 6 (sessions 0 and 1); when the network accepts mobile station 1, its request goes to the entity with session 1, so mobile station 2 sends it under its own TLLI. Proved for every history of a device with one mobile station (c164_partial), and for every history at all that the NSAPI is one some user has asked for (c164_asked)."
  },
  {
   "property": "C165",
   "status": "partial",
   "theorems": [
    "Verif.Props.c165_violated",
    "Verif.Props.c165_partial"
   ],
   "note": "Refuted: GMM keeps one session per mobile station, that of the last GMMSM-ESTABLISH.req (gmm_prim.c:610-640), and releases only this one. With the PDP context at NSAPI 5 active and one at NSAPI 6 asked for, switching the mobile station off leaves the first one active. Proved for every history and every GMM event that ends a registration: the PDP context whose session GMM has ends, whatever else GMM hands out at the same time (c165_partial)."
  },
  {
   "property": "C166",
   "status": "partial",
   "theorems": [
    "Verif.Props.c166_violated",
    "Verif.Props.c166_partial"
   ],
   "note": "Refuted: when the network reallocates the P-TMSI between the attach and ACTIVATE PDP CONTEXT ACCEPT, SM is not told the new TLLI (only ROUTING AREA UPDATE ACCEPT leads to GMMSM-MODIFY.ind), so SNDCP is given the old one and the user's packets under the new TLLI are refused. Proved for every history without ACTIVATE PDP CONTEXT REJECT of cause 0 (which SM reports to the user as accepted): SNDCP takes packets under the TLLI SM has at that moment."
  },
  {
   "property": "C167",
   "status": "partial",
   "theorems": [
    "Verif.Props.c167_violated",
    "Verif.Props.c167_partial"
   ],
   "note": "Refuted: SM drops the PDP contexts of a mobile station that is switched off or detached without SNSM-DEACTIVATE.ind to SNDCP, which keeps its entity. Proved for the PDP context status element (GMMSM-MODIFY.ind): exactly the contexts the network calls inactive stop carrying packets, end, and are reported; everything else goes on."
  },
  {
   "property": "C168",
   "status": "partial",
   "theorems": [
    "Verif.Props.c168_violated",
    "Verif.Props.c168_partial"
   ],
   "note": "Refuted: for a request without QoS profile SM keeps the length 0 of the request also for the granted profile, SNDCP refuses SNSM-ACTIVATE.ind with -EINVAL, and the user never hears of the PDP context. Proved for requests with a QoS profile of a length SNDCP knows, together with the state of GMM and SNDCP at that moment."
  },
  {
   "property": "C169",
   "status": "partial",
   "theorems": [
    "Verif.Props.c169_violated",
    "Verif.Props.c169_partial"
   ],
   "note": "Refuted: an ACTIVATE PDP CONTEXT REQUEST with a long access point name, an IPv4v6 address and long protocol configuration options has up to 405 octets, LLC takes no more than its N201-U of 400 octets on SAPI 1 and refuses it with -EFBIG, so the activation never gets on. Proved for requests of mobile station 0 (see C163) with a QoS profile of a length SNDCP knows (see C168) and at most 367 octets of QoS profile, access point name and protocol configuration options: every message leaves in its LLC frame with consecutive numbers, also across the change of the TLLI, the user is told, and any packets get through in both directions."
  },
  {
   "property": "C170",
   "status": "partial",
   "theorems": [
    "Verif.Props.c170_violated",
    "Verif.Props.c170_partial",
    "Verif.Props.c170_sender"
   ],
   "note": "Refuted: sndcp.c:262-273 answers the question whether any compression is in use always with no, so that the compression values of received packets are stored and never looked at: after an accepted V.42bis negotiation the compressed octets are handed up to the user as the packet. Proved for every history: compression values make no difference to what is handed up, so packets that are not compressed are not harmed, and the station marks everything it sends as not compressed."
  },
  {
   "property": "C171",
   "status": "proved",
   "theorems": [
    "Verif.Props.c171",
    "Verif.Props.c171_only",
    "Verif.Props.c171_transfer",
    "Verif.Props.c171_others"
   ],
   "note": "The block is described by TS 44.060 alone (Spec/RlcAir.lean); the model reads octets by position, every read checked."
  },
  {
   "property": "C172",
   "status": "partial",
   "theorems": [
    "Verif.Props.c172_violated",
    "Verif.Props.c172_partial"
   ],
   "note": "Refuted: rlc.c:53 sets the stall indicator to 0 and nothing sets it otherwise, so that after 64 unacknowledged blocks, with V(S) = V(A) + 64, blocks leave with SI = 0 and the network is not asked for an acknowledgement. Proved for every history: all other fields and the payload."
  },
  {
   "property": "C173",
   "status": "partial",
   "theorems": [
    "Verif.Props.c173_violated",
    "Verif.Props.c173_partial",
    "Verif.Props.c173_safe"
   ],
   "note": "Refuted: csn1_ts_44_060.c:5107-5117 follows the chain of length indicators for as long as the received octets go on, but the arrays have five entries: a block with six length indicators writes behind them. Proved: blocks with at most five are read as what they consist of, and any 23 octets of which one of octets 4 to 8 ends the chain do no harm. Blocks of CS-2 to CS-4 are not meant: the function takes 23 octets for granted."
  },
  {
   "property": "C174",
   "status": "proved",
   "theorems": [
    "Verif.Props.c174"
   ],
   "note": "The user has to end the chain of length indicators within the five entries; that is a hypothesis. The reader is that of C171."
  },
  {
   "property": "C175",
   "status": "proved",
   "theorems": [
    "Verif.Props.c175",
    "Verif.Props.c175_refused"
   ],
   "note": ""
  },
  {
   "property": "C176",
   "status": "partial",
   "theorems": [
    "Verif.Props.c176_violated",
    "Verif.Props.c176_partial"
   ],
   "note": "Refuted as C118 is: csn1_enc.c:1183-1185 does not count the bit that ends a list of structures, so that the padding of an empty PACKET PAGING REQUEST is shifted. Proved: exact bits without such lists, and header and parts with them."
  },
  {
   "property": "C177",
   "status": "partial",
   "theorems": [
    "Verif.Props.c177_violated",
    "Verif.Props.c177_partial",
    "Verif.Props.c177_long"
   ],
   "note": "Refuted: PSI13_t starts with a member Exist (csn1_defs.h:3210), so that the octet by which osmo_gprs_rlcmac_encode_downlink() selects the message (u.MESSAGE_TYPE) is not the member the table sends: with u.MESSAGE_TYPE = 55 alone the block carries message type 0. And a PACKET PAGING REQUEST one bit too long is encoded without an error and refused by the receiver. Proved: everything that fits, with the second octet set as well in a PSI13."
  },
  {
   "property": "C178",
   "status": "partial",
   "theorems": [
    "Verif.Props.c178_violated",
    "Verif.Props.c178_partial"
   ],
   "note": "Refuted: PHO_RadioResources_t has ARFCN as one octet, the table (csn1_ts_44_060.c:3779) sends ten bits of it, and csn1_enc.c reads two octets: a PACKET HANDOVER COMMAND sends the low bits of the next member (SI) as high bits of the ARFCN. Proved: all structures with parts that fit, and all errors of the header."
  },
  {
   "property": "C179",
   "status": "proved",
   "theorems": [
    "Verif.Props.c179",
    "Verif.Props.c179_answer"
   ],
   "note": "The C/R bit of the frame sent back is that of a command (C58), and the peer may find its FCS wrong (C04); the theorem says its octets but for the FCS."
  },
  {
   "property": "C180",
   "status": "partial",
   "theorems": [
    "Verif.Props.c180_violated",
    "Verif.Props.c180_partial"
   ],
   "note": "Refuted: gprs_llc_lle_process_xid_conf() (llc.c:674-690) hands the Layer-3 parameters of a response up and ignores its N201-U and N201-I; a peer that answers with N201-U = 200 is still sent 500 octets in one frame. Proved for XID commands of the peer."
  },
  {
   "property": "C181",
   "status": "proved",
   "theorems": [
    "Verif.Props.c181",
    "Verif.Props.c181_default"
   ],
   "note": "Responses are not said to give values: the code ignores those (C180)."
  },
  {
   "property": "C182",
   "status": "proved",
   "theorems": [
    "Verif.Props.c182"
   ],
   "note": "Timers run out at some time: their durations are not part of the model. Histories that end in undefined behaviour (C30) or an error are not continued."
  },
  {
   "property": "C183",
   "status": "proved",
   "theorems": [
    "Verif.Props.c183",
    "Verif.Props.c183_acked",
    "Verif.Props.c183_controlAck",
    "Verif.Props.c183_data"
   ],
   "note": "An assignment while a TBF exists replaces it, as in the code. A data block goes to the first TBF with the TFI; c183_data is for one TFI given once (see C116)."
  },
  {
   "property": "C184",
   "status": "partial",
   "theorems": [
    "Verif.Props.c184_violated",
    "Verif.Props.c184_partial",
    "Verif.Props.c184_starts_partial"
   ],
   "note": "Refuted as C118 is: csn1_enc.c:1183-1185 does not count the bit that ends the list of additional access technologies, so that the padding behind an entry in the short form is shifted. Proved: exact bits, padding included, for entries in the long form, and the bits before the padding for all."
  },
  {
   "property": "C185",
   "status": "proved",
   "theorems": [
    "Verif.Props.c185"
   ],
   "note": "For entries in the long form, whose length is below 128 bits and at least the first field of which is present."
  },
  {
   "property": "C186",
   "status": "partial",
   "theorems": [
    "Verif.Props.c186_violated",
    "Verif.Props.c186_short_form",
    "Verif.Props.c186_room_partial",
    "Verif.Props.c186_round_trip_partial"
   ],
   "note": "Refuted: two additional access technologies take 33 bits; written to 4 octets osmo_gprs_rlcmac_encode_ms_ra_cap() returns 0, and osmo_gprs_rlcmac_decode_ms_ra_cap() refuses the result, as the end of the inner list is not counted (csn1_enc.c:1183-1185). Proved: success if and only if there is room, for the long form; reading back, for all that fit."
  },
  {
   "property": "C187",
   "status": "proved",
   "theorems": [
    "Verif.Props.c187_standing_queue_is_shortened",
    "Verif.Props.c187_first_drop"
   ],
   "note": "About the decisions of the queue manager; what the queue does with a packet to be dropped is C25 and C62."
  },
  {
   "property": "C188",
   "status": "partial",
   "theorems": [
    "Verif.Props.c188_violated",
    "Verif.Props.c188_in_the_clear",
    "Verif.Props.c188_partial"
   ],
   "note": "Refuted: llc_prim_handle_llgmm_assign_req() (llc_llgmm.c:145-231) ignores gea and kc, and nothing writes llme->algo; c188_in_the_clear: after every history, every UI frame sent on request says it is not ciphered and shows the data. GMM hands algorithm and key to LLC (gmm.c:543-546) and answers the network that ciphering was accepted. Proved: ciphered frames received are dropped."
  },
  {
   "property": "C189",
   "status": "partial",
   "theorems": [
    "Verif.Props.c189_violated",
    "Verif.Props.c189_partial",
    "Verif.Props.c189_never"
   ],
   "note": "Refuted: SM numbers PDP contexts (sessions) from 0, but names the mobile station instead of the session in GMMSM-UNITDATA.req (sm.c:289-311), while GMM looks for the session of the last GMMSM-ESTABLISH.req (gmm_prim.c:619, 647). With the PDP context at NSAPI 5 of mobile station 0 active, the request for NSAPI 6 is dropped. Proved for every history: all activation requests that a mobile station ever gets out are for one NSAPI (c189_never), so it never has a second PDP context; and when the next session has the number of the mobile station, the request is handed out at once (c189_partial)."
  },
  {
   "property": "C190",
   "status": "partial",
   "theorems": [
    "Verif.Props.c190_violated",
    "Verif.Props.c190_partial",
    "Verif.Props.c190_asked"
   ],
   "note": "Refuted: SM assigns the answers of the network to PDP contexts by the session GMM names, which is that of the last GMMSM-ESTABLISH.req; the transaction identifier in the message is not looked at (sm.c:442-465, sm_prim.c:555-572). The user asks for NSAPI 5, the request is sent, the user asks for NSAPI 6, whose request is dropped (C189); the ACCEPT for NSAPI 5 then makes the library report NSAPI 6 active. Proved: when the user asks for one NSAPI only, it is reported active only after its request was sent (c190_partial); in general, only what was asked for is reported, and only after some request (c190_asked)."
  },
  {
   "property": "C191",
   "status": "partial",
   "theorems": [
    "Verif.Props.c191_violated",
    "Verif.Props.c191_partial",
    "Verif.Props.c191_refused",
    "Verif.Props.c191_names"
   ],
   "note": "Refuted: gprs_gmm_att_tlvdef (gmm_pdu.c:146-175) has no entry for most of these elements, tlv_parse (libosmocore, modelled from its documented behaviour) returns an error for a type not in the table, and the handlers then refuse the whole message (gmm.c:898-905, 1072-1080). An ATTACH ACCEPT with the list of equivalent PLMNs, which networks commonly send, does not register the mobile station. Proved: T3302 and MBMS context status change nothing (c191_partial); any other element of the list makes every accepted message be refused, without an answer, a change of state or a new TLLI (c191_refused); GMM INFORMATION beginning with a network name is always refused, although the library has a decoder for such names (c191_names)."
  },
  {
   "property": "C192",
   "status": "partial",
   "theorems": [
    "Verif.Props.c192_violated",
    "Verif.Props.c192_partial",
    "Verif.Props.c192_refused"
   ],
   "note": "Refuted: gprs_sm_att_tlvdef (sm_pdu.c:37-54) has no entry for SM cause, back-off timer, re-attempt indicator and NBIFOM container, tlv_parse (libosmocore) returns an error for a type not in the table, and the handlers then refuse the message (sm.c:351-355, 411-415). An ACCEPT in which the network says why it allows only one kind of address is refused, so the context is never activated; a REJECT with a back-off timer is ignored, so the user is not told and the request is repeated. Proved: the packet flow identifier changes nothing (c192_partial); any other element of the lists makes every accepted message be refused, with nothing handed out and no context changing its state (c192_refused)."
  },
  {
   "property": "C193",
   "status": "partial",
   "theorems": [
    "Verif.Props.c193_violated",
    "Verif.Props.c193_partial",
    "Verif.Props.c193_stale",
    "Verif.Props.c193_active_context_lost"
   ],
   "note": "Refuted: pdp_ctx_status_present is reset only where optional elements are parsed (gmm.c:1071-1157), which is skipped for a message without any; GMMSM-MODIFY.ind then repeats the status of an earlier message. Proved: with any optional element in the message the status reported is in the message (c193_partial); without one it is always the one stored before (c193_stale); in a device with session management a PDP context that became active since is thereby deactivated (c193_active_context_lost, one history)."
  },
  {
   "property": "C194",
   "status": "partial",
   "theorems": [
    "Verif.Props.c194_violated",
    "Verif.Props.c194_never",
    "Verif.Props.c194_partial"
   ],
   "note": "LLC data is written with length indicators in the format of GPRS (six bits of length, M, E) for EGPRS coding schemes as well: a frame of five octets is read by the network as one of ten, with five filling octets (proved). Proved for every frame of less than 64 octets that leaves at least one octet in its block: it is read with twice its length or the block cannot be read, so it never arrives. Proved to hold where no length indicator is needed, with and without a TLLI, which is least significant octet first as the standard wants. The headers of such blocks are not written by this version of the code (-ENOTSUP), so the blocks do not get out yet. Missing: which other blocks, with several frames or with a TLLI and a length indicator, happen to be read correctly."
  },
  {
   "property": "C195",
   "status": "partial",
   "theorems": [
    "Verif.Props.c195_violated",
    "Verif.Props.c195_violated_absent",
    "Verif.Props.c195_deactivated",
    "Verif.Props.c195_partial"
   ],
   "note": "The value \"deactivated\", with which the READY timer never expires, is taken for zero: the mobile station goes to standby at once and starts periodic updates (proved; in every state such an accept does exactly what one with zero does). An accept without any optional element leaves the READY timer without the value asked for, so that it never runs after a first attach (proved). Proved for every other value, and for its absence beside other elements, in every state, with or without P-TMSI signature and P-TMSI, whatever the layers below answer. Missing in the proved part: further optional elements."
  },
  {
   "property": "C196",
   "status": "proved",
   "theorems": [
    "Verif.Props.c196_window_says"
   ],
   "note": "Blocks sent and not yet reported on are shown as a question mark (or X when they are to be sent again), where the legend of the log message says U."
  },
  {
   "property": "C197",
   "status": "partial",
   "theorems": [
    "Verif.Props.c197_violated",
    "Verif.Props.c197_partial"
   ],
   "note": "Block numbers are compared without regard to their being counted modulo 128: when V(R) has passed from 127 to 0 and V(Q) has not, the bitmap is empty (proved: blocks 0 to 126 and 129). Proved for all other states of the window. The function is not called by this version of the code."
  },
  {
   "property": "C198",
   "status": "partial",
   "theorems": [
    "Verif.Props.c198_violated",
    "Verif.Props.c198_violated_wait",
    "Verif.Props.c198_never",
    "Verif.Props.c198_partial"
   ],
   "note": "Refuted: the handler of the rejection in gmm_ms_fsm.c makes no difference between causes, and T3346 is stored (gmm.c:996-997) and never read. Asked to attach with its P-TMSI right after any ATTACH REJECT, every mobile station asks the network again (c198_never). Proved: every ATTACH REJECT, with or without T3302 or T3346, ends the attempt, nothing is sent, the user that asked is told the cause, and whichever timers of GMM run out afterwards nothing is handed out (c198_partial)."
  },
  {
   "property": "C199",
   "status": "partial",
   "theorems": [
    "Verif.Props.c199_violated",
    "Verif.Props.c199_violated_auth",
    "Verif.Props.c199_never",
    "Verif.Props.c199_no_message",
    "Verif.Props.c199_partial"
   ],
   "note": "Refuted: the network's DETACH REQUEST is not among the messages the library knows (gmm.c:1460-1499), although the header offers GMMREG-DETACH.ind to report it; it is refused with -EINVAL in every state, without an answer (c199_never). AUTHENTICATION AND CIPHERING REJECT is handled as a rejected attach, which the state machine does not permit in GMM-REGISTERED. No message at all ends the registration of a mobile station that is not updating (c199_no_message). Proved: a ROUTING AREA UPDATE REJECT without optional part ends it, with any cause but 13, 15 and 25, and session management is told (c199_partial)."
  },
  {
   "property": "C200",
   "status": "partial",
   "theorems": [
    "Verif.Props.c200_violated",
    "Verif.Props.c200_refused",
    "Verif.Props.c200_never",
    "Verif.Props.c200_no_message",
    "Verif.Props.c200_partial"
   ],
   "note": "Refuted: only ACTIVATE PDP CONTEXT ACCEPT and REJECT are handled (sm.c:450-462); the network's DEACTIVATE PDP CONTEXT REQUEST is refused with -EINVAL in every state, without an answer (c200_never), so the context stays active. No session management message ends an active context (c200_no_message). Proved: a context that the network calls inactive in the PDP context status of a routing area update is reported to SNDCP, and ends, with an indication to the user, once SNDCP answers (c200_partial)."
  },
  {
   "property": "C201",
   "status": "partial",
   "theorems": [
    "Verif.Props.c201_violated",
    "Verif.Props.c201_never",
    "Verif.Props.c201_ways",
    "Verif.Props.c201_partial"
   ],
   "note": "Refuted: GMMREG-DETACH.ind is declared and can be allocated (gmm_prim.c:248-253), but nothing sends it; a mobile station whose routing area update is rejected, with any cause that ends the registration, becomes deregistered without a word to the user, whatever the message (c201_never). Proved: nothing but a detach for switching off and ROUTING AREA UPDATE REJECT ends a registration in one step (c201_ways; an ordinary detach goes through GMM-DEREGISTERED-INITIATED, C93 and C94), and session management is told of every such end if it has asked for the registration (c201_partial)."
  }
 ]
}
