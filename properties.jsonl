{"id": "C01", "title": "LLC FCS is the CRC-24 of TS 44.064", "statement": "The frame check sequence the LLC layer appends to and verifies on every frame is exactly the CRC-24 of TS 44.064 (generator x^24+x^23+x^21+x^20+x^19+x^17+x^16+x^15+x^13+x^8+x^7+x^5+x^4+x^2+1, bits LSB first, all-ones preset, complemented), i.e. the table-driven computation equals the bit-serial division for every message.", "quantifier": "all byte strings of every length and every table index", "why_tests_cant": "A test compares a few vectors; one wrong entry of the 256-entry table or a wrong fold only shows on the messages that hit it.", "anchors": ["src/llc/crc24.c: osmo_gprs_llc crc24_calc, tbl_crc24", "src/llc/llc_pdu.c: gprs_llc_fcs"]}
{"id": "C02", "title": "FCS rejects every short error burst", "statement": "If a transmitted frame is corrupted in any way inside three consecutive octets (a 24-bit burst), and the corrupted octets are covered by the FCS, the receiver never accepts the corrupted frame as having a correct FCS.", "quantifier": "all frames, all burst positions, all corruption values", "why_tests_cant": "The number of frames and corruptions is unbounded; tests try single examples.", "anchors": ["src/llc/llc_pdu.c: gprs_llc_fcs, gprs_llc_pdu_decode"]}
{"id": "C03", "title": "LLC UI frames survive the wire unchanged", "statement": "Every unnumbered-information frame the library encodes for a usable SAPI decodes at the peer to the same SAPI, C/R, N(U), E, PM bits and payload, with a correct FCS, for protected and unprotected mode alike.", "quantifier": "all SAPIs, N(U) 0..511, flag combinations and payloads of any length", "why_tests_cant": "Header fields are bit-packed over octets and the FCS coverage depends on the mode and length; only a proof covers every combination.", "anchors": ["src/llc/llc_pdu.c: gprs_llc_pdu_encode, gprs_llc_pdu_decode"]}
{"id": "C04", "title": "LLC U frames survive the wire unchanged", "statement": "Every unnumbered command/response (SABM, DISC, UA, DM, FRMR, XID, NULL) the library encodes decodes at the peer to the same function, P/F bit, SAPI and (for XID) payload, with a correct FCS.", "quantifier": "all U functions, flags, SAPIs and XID payloads of any length", "why_tests_cant": "The FCS coverage depends on a mode flag not carried in the frame, so agreement depends on the payload length.", "anchors": ["src/llc/llc_pdu.c: gprs_llc_pdu_encode, gprs_llc_pdu_decode", "src/llc/llc.c: gprs_llc_lle_tx_xid, tx_dm, tx_null"]}
{"id": "C05", "title": "LLC I and S frames survive the wire unchanged", "statement": "Every I or S frame the library encodes decodes to the same supervisory function, N(S), N(R), acknowledgement-request bit, SACK bitmap and payload.", "quantifier": "all functions RR/ACK/RNR/SACK, sequence numbers 0..511, A bit, payloads", "why_tests_cant": "A disagreement between encoder and decoder on one function code or one bit position is invisible to a test that does not use it.", "anchors": ["src/llc/llc_pdu.c: gprs_llc_pdu_encode, gprs_llc_pdu_decode"]}
{"id": "C06", "title": "LLC decoder is memory safe on hostile input", "statement": "For any octet string handed up by the lower layer, decoding an LLC frame either fails with an error or succeeds; it never reads outside the received octets, never writes outside the decoded-frame record and any payload it reports lies inside the received octets.", "quantifier": "all octet strings of every length", "why_tests_cant": "The peer chooses the bytes; fuzzing only samples them.", "anchors": ["src/llc/llc_pdu.c: gprs_llc_pdu_decode"]}
{"id": "C07", "title": "LLC XID parameters survive encode/decode", "statement": "A list of XID parameters whose values fit their declared octet length is encoded to bytes that decode to the same list of types and values, in order, and the encoder never writes past the buffer it was given.", "quantifier": "all parameter lists and all buffer sizes", "why_tests_cant": "Short and extended length forms, variable length L3 parameters and buffer limits interact for arbitrary lists.", "anchors": ["src/llc/llc_xid.c: gprs_llc_xid_encode, gprs_llc_xid_decode"]}
{"id": "C08", "title": "LLC XID decoder only yields valid parameters", "statement": "For any octet string, decoding XID parameters either fails or yields at most the requested number of fields, each of a defined type, with every fixed-length value inside the range TS 44.064 Table 6 allows, reading nothing outside the input.", "quantifier": "all octet strings and all field-count limits", "why_tests_cant": "Input bytes are peer controlled.", "anchors": ["src/llc/llc_xid.c: gprs_llc_xid_decode, gprs_llc_xid_field_is_valid"]}
{"id": "C09", "title": "Transmitted UI frames carry consecutive N(U)", "statement": "For every sequence of LL-UNITDATA.requests on one SAPI the accepted ones are sent with N(U) = 0,1,2,... modulo 512 with none skipped or repeated, and a rejected request (too long, suspended) consumes no number and sends nothing.", "quantifier": "all request histories of any length, payload sizes and limits", "why_tests_cant": "Wrap-around and rejected requests interleave arbitrarily in a history.", "anchors": ["src/llc/llc.c: gprs_llc_lle_tx_ui", "src/llc/llc_ll.c: llc_prim_handle_ll_unitdata_req"]}
{"id": "C10", "title": "Sender and receiver agree on the UI overflow counter", "statement": "When every UI frame of a stream is received in order, the overflow counter (OC) used for ciphering the frame at the sender equals the one the receiver derives for that frame, for every frame of the stream.", "quantifier": "all stream lengths across any number of wrap-arounds of N(U)", "why_tests_cant": "The counter only moves every 512 frames, so short tests never see it.", "anchors": ["src/llc/llc.c: gprs_llc_lle_tx_ui, gprs_llc_hdr_rx"]}
{"id": "C11", "title": "Duplicate UI frames are not delivered twice", "statement": "A UI frame with an N(U) that was already delivered and lies within the last 32 numbers of the receive variable V(UR) is discarded rather than delivered to the upper layer again.", "quantifier": "all reception histories", "why_tests_cant": "Depends on the whole history of received sequence numbers, including wrap-around.", "anchors": ["src/llc/llc.c: gprs_llc_hdr_rx", "src/llc/llc_private.h: gprs_llc_is_retransmit"]}
{"id": "C12", "title": "Oversized unitdata is refused, everything else is sent once", "statement": "An LL-UNITDATA.request is refused with an error and without side effects when the PDU exceeds the N201-U in force for the SAPI, and otherwise leads to exactly one downlink primitive carrying exactly the PDU.", "quantifier": "all payload lengths and all negotiated N201-U values", "why_tests_cant": "The limit is negotiated at run time.", "anchors": ["src/llc/llc.c: gprs_llc_lle_tx_ui"]}
{"id": "C13", "title": "TLLI lookup follows TLLI assignment", "statement": "After any history of LLGMM-ASSIGN requests a frame is attributed to an LLC entity exactly when its TLLI is that entity's current or still-valid old TLLI; unassigned TLLIs never match by accident, and unassigning both removes the entity.", "quantifier": "all histories of assign/unassign operations and all TLLIs", "why_tests_cant": "Depends on the history of TLLI changes and on aliasing with the reserved value.", "anchors": ["src/llc/llc.c: gprs_llc_find_llme_by_tlli", "src/llc/llc_llgmm.c: llc_prim_handle_llgmm_assign_req"]}
{"id": "C14", "title": "Negotiated XID values stay within their legal ranges", "statement": "After any sequence of XID commands and responses from the peer the LLC parameters in force (version, T200, N200, N201-U, N201-I, mD, mU, kD, kU) are within the ranges of TS 44.064, starting from the defaults.", "quantifier": "all sequences of peer XID exchanges", "why_tests_cant": "Peer-controlled values accumulate over the history.", "anchors": ["src/llc/llc.c: gprs_llc_lle_process_xid_ind, process_xid_conf, gprs_llc_default_params"]}
{"id": "C15", "title": "RLC uplink window never exceeds its size", "statement": "In every history of sending, acknowledging, moving and retransmitting RLC uplink blocks the number of blocks between the oldest unacknowledged and the next new block never exceeds the window size, the transmitter reports 'stalled' exactly when it is full, and a stalled window never admits a new block.", "quantifier": "all histories of operations, all legal SNS/WS values, across BSN wrap-around", "why_tests_cant": "Modular arithmetic over arbitrarily long histories.", "anchors": ["src/rlcmac/rlc_window_ul.c: gprs_rlcmac_rlc_ul_window_*"]}
{"id": "C16", "title": "Uplink blocks leave the window only when acknowledged", "statement": "An RLC uplink block passes out of the transmit window only if the network acknowledged it after it was last (re)transmitted; a block reported missing is offered for retransmission before any new block.", "quantifier": "all histories of acknowledgement bitmaps, sends and window moves", "why_tests_cant": "A lost or misindexed bit only loses data in rare interleavings.", "anchors": ["src/rlcmac/rlc_window_ul.c: update, move_window, resend_needed", "src/rlcmac/tbf_ul.c: update_window, take_next_bsn"]}
{"id": "C17", "title": "RLC downlink window tracks exactly the received blocks", "statement": "For every sequence of received RLC downlink blocks that respects the window, the receive state equals that of an ideal receiver with unbounded block numbers: V(Q) is the lowest number not received, V(R) is one above the highest received, a number is reported received exactly if it was received.", "quantifier": "all reception sequences inside the window, any length, all SNS", "why_tests_cant": "The C state is a circular bitmap modulo SNS; the claim is about unbounded histories.", "anchors": ["src/rlcmac/rlc_window_dl.c"]}
{"id": "C18", "title": "ACK/NACK bitmap reports exactly the received blocks", "statement": "The received-block bitmap reported to the network has, at each position, 'received' exactly if the block number that position denotes was received, and the starting sequence number is V(R).", "quantifier": "all window states reachable by receiving blocks", "why_tests_cant": "Position arithmetic modulo SNS for every state.", "anchors": ["src/rlcmac/rlc_window_dl.c: update_rbb", "src/rlcmac/rlcmac_enc.c: ack_nack_desc"]}
{"id": "C19", "title": "RLC segmentation and reassembly are inverse", "statement": "Any sequence of LLC frames put through the RLC uplink block encoder, whatever the payload sizes of the individual blocks, is recovered exactly, in order and complete, by parsing the length indicators of the blocks in order and concatenating segments.", "quantifier": "all lists of non-empty LLC frames, all block payload sizes", "why_tests_cant": "LI/M/E corner cases (chunk exactly fills block, one octet short, last block) depend on frame and block lengths jointly.", "anchors": ["src/rlcmac/rlcmac_enc.c: gprs_rlcmac_rlc_data_to_ul_append*", "src/rlcmac/rlcmac_dec.c: parse_extensions_gprs, gprs_rlcmac_rlc_data_from_dl_data"]}
{"id": "C20", "title": "RLC data block parser stays in bounds", "statement": "For any received GPRS RLC data block the parser reports chunks that are consecutive, in order and inside the block payload; malformed length indicators are rejected and nothing outside the block is read.", "quantifier": "all block contents and payload sizes", "why_tests_cant": "Network-controlled bytes.", "anchors": ["src/rlcmac/rlcmac_dec.c: parse_extensions_gprs, rlc_data_from_dl_data"]}
{"id": "C21", "title": "Downlink LLC frames are delivered once, in order, uncorrupted", "statement": "Whatever order the blocks of a downlink TBF arrive in (within the window, with duplicates), the LLC frames handed up are exactly the sender's frames in order.", "quantifier": "all arrival orders and duplications", "why_tests_cant": "Combinatorial number of arrival orders.", "anchors": ["src/rlcmac/tbf_dl.c: gprs_rlcmac_dl_tbf_rcv_data_block, assemble_forward_llc"]}
{"id": "C22", "title": "Network ACK bitmap is applied to the right blocks", "statement": "Decoding the received-block bitmap of a Packet Uplink Ack/Nack marks block SSN-1-i as acknowledged exactly if bit i of the bitmap says so, for every block between V(A) and SSN, and touches no other block (in particular none that was never sent); an SSN more than the window size ahead of V(A) changes nothing.", "quantifier": "all SSN, V(A), V(S), bitmaps", "why_tests_cant": "Index arithmetic modulo SNS.", "anchors": ["src/rlcmac/rlcmac_dec.c: decode_gprs_acknack_bits", "src/rlcmac/rlc_window_ul.c: update"]}
{"id": "C23", "title": "Countdown value announces the end of the uplink TBF", "statement": "The countdown value (CV) in uplink data blocks is 15 until few blocks remain, then never increases, and is 0 exactly in the last block(s) of the TBF.", "quantifier": "all queue contents, coding schemes and slot counts", "why_tests_cant": "Depends on everything still queued at the time each block is built.", "anchors": ["src/rlcmac/tbf_ul.c: calculate_cv, create_new_bsn"]}
{"id": "C24", "title": "LLC queue is FIFO per priority and conserves frames", "statement": "Frames enqueued with the same radio priority and SAPI class leave the LLC queue in the order they entered, a frame of higher priority always leaves first (frames frozen for the countdown of the current TBF before the others), nothing is lost or duplicated, and the size/octet counters always equal the content.", "quantifier": "all interleavings of enqueue, dequeue, clear and queue merges", "why_tests_cant": "Histories of arbitrary length over 12 sub-queues.", "anchors": ["src/rlcmac/llc_queue.c"]}
{"id": "C25", "title": "Queue management drop never hands out freed frames", "statement": "When active queue management decides to drop a frame on dequeue, the dropped frame is released exactly once and the caller receives either another queued frame or nothing, never the released frame.", "quantifier": "all queue contents and dequeue times", "why_tests_cant": "Depends on the timing history of the queue.", "anchors": ["src/rlcmac/llc_queue.c: gprs_rlcmac_llc_queue_dequeue", "src/rlcmac/codel.c"]}
{"id": "C26", "title": "CoDel control law", "statement": "The queue manager never drops while sojourn times stay below target, drops only once sojourn exceeded the target for a full interval, and successive drops while above target are spaced by interval/sqrt(count), with the square root taken from a table of 8-bit factors (count from 1 to 256; larger counts are treated as 256).", "quantifier": "all sequences of (time, sojourn) observations", "why_tests_cant": "Temporal property over arbitrary traces.", "anchors": ["src/rlcmac/codel.c: gprs_codel_control, control_law"]}
{"id": "C27", "title": "Uplink TBF survives any network behaviour", "statement": "No sequence of network messages, timer expiries and data-block events makes the uplink TBF state machine abort the process; unexpected events are ignored.", "quantifier": "all event sequences", "why_tests_cant": "Event interleavings are unbounded.", "anchors": ["src/rlcmac/tbf_ul_fsm.c", "src/rlcmac/tbf_ul.c: handle_pkt_ul_ack_nack"]}
{"id": "C28", "title": "Uplink access attempts are bounded", "statement": "An uplink TBF makes at most four packet access attempts (on T3164/T3166/T3168/N3104 failures) before it is released.", "quantifier": "all event sequences", "why_tests_cant": "Counter reachable only through long failure sequences.", "anchors": ["src/rlcmac/tbf_ul_fsm.c: timer cb, reinit_pkt_acces_procedure", "src/rlcmac/tbf_ul_ass_fsm.c: T3168"]}
{"id": "C29", "title": "Uplink TBF cannot get stuck", "statement": "In every reachable state of an uplink TBF that waits for the network some timer is running or a poll is scheduled, so that the TBF eventually completes or is released.", "quantifier": "all reachable TBF states", "why_tests_cant": "Reachability over all event sequences.", "anchors": ["src/rlcmac/tbf_ul_fsm.c", "src/rlcmac/tbf_ul_ass_fsm.c"]}
{"id": "C30", "title": "Assignment with starting time never aborts", "statement": "Whatever uplink assignment message the network sends, the assignment state machine either starts the TBF with at least one timeslot or rejects/retries; it never aborts.", "quantifier": "all assignment message contents and subsequent ticks", "why_tests_cant": "Message structure variants times state times tick order.", "anchors": ["src/rlcmac/tbf_ul_ass_fsm.c"]}
{"id": "C31", "title": "One uplink transmission per RTS, in priority order", "statement": "Each ready-to-send indication results in at most one uplink block; control messages take precedence over data and data over dummy blocks, and an RTS whose USF does not belong to the TBF never carries its data.", "quantifier": "all scheduler states and RTS parameters", "why_tests_cant": "Combination of all pending work.", "anchors": ["src/rlcmac/sched.c: gprs_rlcmac_rcv_rts_block"]}
{"id": "C32", "title": "Poll reservations are exclusive, honoured and do not outlive their owner", "statement": "At most one poll is reserved per timeslot and frame number, a reserved poll is found at exactly its frame number until released or expired, expiry removes exactly the past reservations, and freeing a TBF removes all of its reservations.", "quantifier": "all histories of reserve/release/expire operations", "why_tests_cant": "Ordering of frame numbers is cyclic; histories are unbounded.", "anchors": ["src/rlcmac/pdch_ul_controller.c"]}
{"id": "C33", "title": "Poll frame number from RRBP", "statement": "The frame number computed for a poll is the start of a valid radio block, lies 13, 17/18, 21/22 or 26 frames after the downlink block, and wraps correctly at the end of the hyperframe.", "quantifier": "all valid frame numbers and RRBP values", "why_tests_cant": "2715648 frame numbers including the wrap.", "anchors": ["src/rlcmac/sched.c: rrbp2fn"]}
{"id": "C34", "title": "TBF starting time from a relative frame number", "statement": "The absolute frame number computed from a relative TBF starting time k is the (k+1)-th block after the current one, is a valid radio block start and never triggers the internal assertion.", "quantifier": "all valid current frame numbers and k", "why_tests_cant": "All frame numbers times all k.", "anchors": ["src/rlcmac/rlcmac_dec.c: TBF_StartingTime_to_fn / k_to_fn"]}
{"id": "C35", "title": "Block size identifies the coding scheme", "statement": "The coding scheme deduced from the size of a radio block is the one whose block size it is: sizes and schemes are in one-to-one correspondence in each direction, and unknown sizes are rejected.", "quantifier": "all coding schemes and all sizes", "why_tests_cant": "Table consistency over all entries and sizes.", "anchors": ["src/rlcmac/coding_scheme.c"]}
{"id": "C36", "title": "Retransmission coding scheme stays compatible", "statement": "The MCS chosen to retransmit a block is always of a family compatible with the original block, is the fastest such scheme not above the commanded one (the slowest if all are above), and choosing it again gives the same answer.", "quantifier": "all pairs of coding schemes and both resegmentation modes", "why_tests_cant": "Whole table.", "anchors": ["src/rlcmac/coding_scheme.c: gprs_rlcmac_get_retx_mcs, tables"]}
{"id": "C37", "title": "Requested octet count covers the queue", "statement": "The RLC octet count requested from the network is the number of queued octets plus one length octet per frame, saturating at the field maximum instead of wrapping.", "quantifier": "all queue contents", "why_tests_cant": "Saturation only for large queues.", "anchors": ["src/rlcmac/gre.c: gprs_rlcmac_entity_calculate_new_ul_tbf_rlc_octet_count"]}
{"id": "C38", "title": "RLC/MAC entities follow TLLI assignment", "statement": "After any history of GMMRR-ASSIGN requests exactly the assigned TLLIs have an RLC/MAC entity, each found by its current or old TLLI, and releasing removes it.", "quantifier": "all histories", "why_tests_cant": "History property.", "anchors": ["src/rlcmac/rlcmac_prim.c: rlcmac_prim_handle_gmmrr_assign_req", "src/rlcmac/rlcmac.c: find_entity_by_tlli"]}
{"id": "C39", "title": "Immediate assignment parsing stays in the message", "statement": "Parsing a CCCH Immediate Assignment never reads outside the 23-octet message whatever the mobile-allocation length field says.", "quantifier": "all 23-octet messages", "why_tests_cant": "Network controlled length field.", "anchors": ["src/rlcmac/rlcmac.c: gprs_rlcmac_handle_ccch_imm_ass"]}
{"id": "C40", "title": "SNDCP segments fit the link and carry the whole N-PDU", "statement": "For every N-PDU and N201-U the SN-UNITDATA PDUs sent are each at most N201-U long, exactly the first has F set, exactly the last has M clear, they carry the same N-PDU number, and their payloads concatenate to the N-PDU.", "quantifier": "all N-PDUs and N201-U values", "why_tests_cant": "Length arithmetic over all sizes.", "anchors": ["src/sndcp/sndcp.c: gprs_sndcp_send_ud_frag, gprs_sndcp_sne_handle_sn_unitdata_req"]}
{"id": "C41", "title": "SNDCP reassembly recovers the N-PDU", "statement": "An N-PDU sent through SNDCP segmentation and received in order at the peer is delivered exactly once and unchanged.", "quantifier": "all N-PDUs and N201-U values", "why_tests_cant": "Segment numbers are 4 bits and N-PDU size is unbounded.", "anchors": ["src/sndcp/sndcp.c: defrag_input, defrag_segments, gprs_sndcp_send_ud_frag"]}
{"id": "C42", "title": "SNDCP reassembly tolerates reordering", "statement": "If the segments after the first arrive in any order the N-PDU is still delivered exactly once and unchanged.", "quantifier": "all permutations of segments", "why_tests_cant": "Factorially many orders.", "anchors": ["src/sndcp/sndcp.c: defrag_input"]}
{"id": "C43", "title": "SNDCP never mixes N-PDUs", "statement": "A delivered N-PDU consists only of segments of one N-PDU: segments carrying different N-PDU numbers never end up in one delivery.", "quantifier": "all sequences of received segments including losses", "why_tests_cant": "Needs specific losses.", "anchors": ["src/sndcp/sndcp.c: defrag_input"]}
{"id": "C44", "title": "SNDCP ignores duplicated segments", "statement": "Duplicate reception of a segment does not change the N-PDU that is delivered.", "quantifier": "all sequences with duplicates", "why_tests_cant": "Any segment may be duplicated at any time.", "anchors": ["src/sndcp/sndcp.c: defrag_enqueue, defrag_segments"]}
{"id": "C45", "title": "SNDCP header parsing stays in bounds", "statement": "Handling any received LL-UNITDATA payload never reads outside the payload nor aborts.", "quantifier": "all payloads of every length", "why_tests_cant": "Peer controlled bytes.", "anchors": ["src/sndcp/sndcp.c: gprs_sndcp_sne_handle_llc_ll_unitdata_ind", "src/sndcp/sndcp_prim.c: gprs_sndcp_prim_handle_llc_ll_unitdata_ind"]}
{"id": "C46", "title": "SNDCP XID fields survive encode/decode", "statement": "Compression proposals with legal parameters are encoded into bytes that parse back to the same algorithms, entity numbers, PCOMP/DCOMP values, NSAPIs and parameters.", "quantifier": "all legal parameter values", "why_tests_cant": "Nested TLV and nibble packing for every value.", "anchors": ["src/sndcp/sndcp_xid.c: gprs_sndcp_compile_xid, gprs_sndcp_parse_xid"]}
{"id": "C47", "title": "Peer XID cannot crash SNDCP", "statement": "Whatever XID block the peer sends, parsing it, indicating it and answering it neither reads out of bounds nor aborts.", "quantifier": "all XID blocks", "why_tests_cant": "Peer controlled bytes.", "anchors": ["src/sndcp/sndcp_xid.c", "src/sndcp/sndcp.c: gprs_sndcp_sne_handle_sn_xid_rsp"]}
{"id": "C48", "title": "Compression entity bookkeeping", "statement": "For every history of negotiations each compression list holds at most one entity per entity number, every entity applies to at least one NSAPI and entities of header and data compression are never confused.", "quantifier": "all negotiation histories", "why_tests_cant": "History property.", "anchors": ["src/sndcp/sndcp_comp.c"]}
{"id": "C49", "title": "SNDCP entities follow PDP activation", "statement": "After any history of SNSM activations, deactivations, XID exchanges and TLLI changes (to TLLIs not already in use) an SNDCP entity exists for (TLLI, NSAPI) exactly when it was activated and not deactivated, and the management entity exists exactly while it has at least one entity.", "quantifier": "all histories", "why_tests_cant": "History property.", "anchors": ["src/sndcp/sndcp.c", "src/sndcp/sndcp_prim.c"]}
{"id": "C50", "title": "PDP context activation is always answered", "statement": "Every PDP activation request of the user eventually produces exactly one confirmation (accepted or rejected) once the procedure ends, and 'accepted' is reported only when the context is active.", "quantifier": "all event sequences", "why_tests_cant": "Interleavings of network answers, timers and releases.", "anchors": ["src/sm/sm_ms_fsm.c", "src/sm/sm.c: gprs_sm_submit_smreg_pdp_act_cnf"]}
{"id": "C51", "title": "PDP activation retries are bounded", "statement": "Without an answer from the network an activation request is retransmitted a bounded number of times and then rejected.", "quantifier": "all timer/event sequences", "why_tests_cant": "Long failure sequences.", "anchors": ["src/sm/sm_ms_fsm.c: sm_ms_fsm_timer_cb"]}
{"id": "C52", "title": "GMM attach and RAU procedures terminate", "statement": "Without an answer from the network, attach and routing-area-update procedures end after a bounded number of retransmissions, every time they are started.", "quantifier": "all event sequences including repeated procedures", "why_tests_cant": "The counters persist across procedures.", "anchors": ["src/gmm/gmm_ms_fsm.c"]}
{"id": "C53", "title": "LLC is resumed whenever GMM is registered", "statement": "Whenever GMM returns to the registered state after a routing area update the data link suspended for it is resumed.", "quantifier": "all event sequences", "why_tests_cant": "Depends on the outcome path.", "anchors": ["src/gmm/gmm_ms_fsm.c: st_gmm_ms_rau_initiated"]}
{"id": "C54", "title": "P-TMSI signature is stored as received", "statement": "The P-TMSI signature stored from the network's message is the 24-bit value the message carries, and it is sent back unchanged.", "quantifier": "all 2^24 signatures", "why_tests_cant": "Full value range.", "anchors": ["src/gmm/gmm.c: gprs_gmm_rx_att_ack", "src/gmm/gmm_pdu.c"]}
{"id": "C55", "title": "QoS profile bit rates survive encode/decode", "statement": "Encoding a bit rate and decoding it again yields the largest representable rate not above the requested one.", "quantifier": "all 32-bit rates", "why_tests_cant": "Whole range with many breakpoints.", "anchors": ["src/common/qos.c: enc_mbr_kbps, dec_mbr_kbps"]}
{"id": "C56", "title": "QoS profile length is self consistent", "statement": "The encoded QoS profile has a length the decoder accepts, and the decoder never reads beyond the given length.", "quantifier": "all decoded profiles and all lengths", "why_tests_cant": "All flag combinations.", "anchors": ["src/common/qos.c: gprs_qos_build_qos_profile, gprs_qos_parse_qos_profile"]}
{"id": "C57", "title": "UI data sent in order over a lossless link is delivered once and in order", "statement": "When every UI frame emitted for a sequence of LL-UNITDATA requests reaches a peer whose receive state is in step with the sender, the peer hands up exactly the requested payloads, in order, each once.", "quantifier": "all sequences of non-empty payloads within N201-U, all user SAPIs, all starting sequence numbers", "why_tests_cant": "Number of frames and wrap-around of the sequence number are unbounded.", "anchors": ["src/llc/llc.c: gprs_llc_lle_tx_ui, gprs_llc_lle_rx_unitdata_ind"]}
{"id": "C58", "title": "LLC commands and responses are told apart by the peer", "statement": "A U frame the library sends as a command is taken for a command by the peer running the same library in the opposite role, and one sent as a response for a response; hence an XID exchange ends.", "quantifier": "both roles, commands and responses, any length of the exchange", "why_tests_cant": "Non-termination of an exchange between two instances is a property of infinite runs.", "anchors": ["include/osmocom/gprs/llc/llc_private.h: gprs_llc_received_cr_is_cmd, gprs_llc_encode_is_cmd_as_cr", "src/llc/llc.c: gprs_llc_lle_process_xid_ind"]}
{"id": "C59", "title": "LL-XID requests reach the peer", "statement": "The frame sent for an LL-XID request passes the frame check of a peer running the same library and the peer adopts the parameters / indicates the layer-3 parameters carried by it.", "quantifier": "all SAPIs, parameter values, layer-3 parameter octets", "why_tests_cant": "All parameter values and payloads.", "anchors": ["src/llc/llc.c: gprs_llc_lle_tx_xid, gprs_llc_lle_tx_xid_req", "src/llc/llc_pdu.c: gprs_llc_pdu_encode, gprs_llc_pdu_decode"]}
{"id": "C60", "title": "No LLC request or received frame aborts or reads out of bounds", "statement": "Whatever the history, handling a request from the upper layers or any frame from the peer neither aborts the process nor accesses memory outside the frame or the entity tables.", "quantifier": "all states, requests and frames", "why_tests_cant": "Arbitrary frames in arbitrary states.", "anchors": ["src/llc/llc.c: gprs_llc_lle_rx_unitdata_ind", "src/llc/llc_pdu.c: gprs_llc_pdu_decode", "src/llc/llc_ll.c", "src/llc/llc_llgmm.c"]}
{"id": "C61", "title": "Downlink data blocks cannot abort the mobile", "statement": "No sequence of downlink RLC data blocks, however the network fills them, makes the process abort or touch memory outside the block.", "quantifier": "all sequences of downlink data blocks", "why_tests_cant": "The reassembly buffer is bounded; only long adversarial sequences reach its end.", "anchors": ["src/rlcmac/tbf_dl.c: gprs_rlcmac_dl_tbf_assemble_forward_llc"]}
{"id": "C62", "title": "An empty LL-PDU is harmless", "statement": "A GRR-UNITDATA request with an empty LL-PDU is refused or ignored; it never makes the uplink queue work on a null pointer.", "quantifier": "all histories of requests, with empty and non-empty LL-PDUs", "why_tests_cant": "Depends on what is queued before it and when it is taken out.", "anchors": ["src/rlcmac/llc_queue.c: gprs_rlcmac_llc_queue_enqueue, gprs_rlcmac_llc_queue_pick_msg, gprs_rlcmac_llc_queue_dequeue"]}
{"id": "C63", "title": "Configured queue management stays in force", "statement": "If active queue management (CoDel) is configured for the uplink, it stays in force for the whole life of the MS entity, whatever number of uplink TBFs is used.", "quantifier": "all histories of enqueue, dequeue, countdown and TBF release", "why_tests_cant": "Needs histories over several TBFs.", "anchors": ["src/rlcmac/gre.c: gprs_rlcmac_entity_alloc", "src/rlcmac/tbf_ul.c: gprs_rlcmac_ul_tbf_steal_llc_queue_from_gre"]}
{"id": "C64", "title": "Absolute starting times are decoded exactly", "statement": "The absolute TBF starting time (T1', T3, T2) of an assignment is decoded to the one relative frame number below 42432 with these residues; no value of the fields yields a relative frame number outside this range, which would abort the process.", "quantifier": "all values of the three fields as they can arrive on the air", "why_tests_cant": "The whole field ranges, including those no network is supposed to send.", "anchors": ["src/rlcmac/rlcmac_dec.c: TBF_StartingTime_to_fn", "src/rlcmac/rlcmac_dec.c: Starting_Frame_Number"]}
{"id": "C65", "title": "Coding scheme arithmetic stays in its family", "statement": "Raising or lowering a coding scheme stays within its kind (GPRS, GMSK EGPRS, EGPRS), moves by one step and saturates at the ends; the channel coding command and the number of a scheme determine each other.", "quantifier": "all coding schemes and kinds", "why_tests_cant": "Whole tables.", "anchors": ["src/rlcmac/coding_scheme.c: gprs_rlcmac_mcs_inc, gprs_rlcmac_mcs_dec, gprs_rlcmac_mcs_chan_code"]}
{"id": "C66", "title": "Next radio block", "statement": "For every radio block of the hyperframe, the frame number computed for the following block is the first frame of that block, also at the end of a 52-multiframe and of the hyperframe.", "quantifier": "all radio blocks", "why_tests_cant": "The hyperframe has 626688 radio blocks; tests try a few.", "anchors": ["include/osmocom/gprs/rlcmac/sched.h: fn_next_block"]}
{"id": "C67", "title": "Contention resolution gives up after N3104 blocks", "statement": "During one-phase access a TBF whose contention is not resolved sends exactly 3 x (BS_CV_MAX + 3) x (number of timeslots) blocks (BS_CV_MAX taken as 1 when 0) and with the last one drops its allocation and starts the packet access again.", "quantifier": "all values of BS_CV_MAX, allocations and numbers of blocks sent", "why_tests_cant": "The limit depends on cell parameters and allocation; tests try one.", "anchors": ["src/rlcmac/tbf_ul.c: gprs_rlcmac_ul_tbf_n3104_max, create_ul_acked_block"]}
{"id": "C68", "title": "SNDCP N-PDU numbers advance by one", "statement": "The SN-UNITDATA PDUs of successive SN-UNITDATA.req on one NSAPI carry successive N-PDU numbers, counted modulo 4096 (12 bits), and all PDUs of one N-PDU carry the same number.", "quantifier": "all sequences of N-PDUs, all N201-U values, all starting numbers", "why_tests_cant": "The wrap happens only after thousands of N-PDUs and depends on the number of requests, not on their content.", "anchors": ["src/sndcp/sndcp.c:gprs_sndcp_send_ud_frag", "src/sndcp/sndcp.c:gprs_sndcp_sne_handle_sn_unitdata_req"]}
{"id": "C69", "title": "Negotiated compression works", "statement": "Every compression entity that exists after any negotiation has a working compressor and decompressor behind it.", "quantifier": "all negotiation histories", "why_tests_cant": "Depends on every combination of negotiated parameters, including the extreme ones.", "anchors": ["src/sndcp/sndcp_comp.c: gprs_sndcp_comp_create", "src/sndcp/sndcp_pcomp.c: gprs_sndcp_pcomp_init", "src/sndcp/slhc.c: slhc_init", "src/sndcp/v42bis.c: v42bis_init"]}
{"id": "C70", "title": "Both sides agree on compression", "statement": "If both sides have the same compression entities before a negotiation (SN-XID.req, LL-XID.ind, SN-XID.rsp, LL-XID.cnf), they have the same ones after it, namely those proposals the asked side agrees to.", "quantifier": "all proposals, configurations and previous states of both sides", "why_tests_cant": "Relates two instances over a whole protocol exchange, for all parameters.", "anchors": ["src/sndcp/sndcp.c: gprs_sndcp_sne_handle_sn_xid_req, gprs_sndcp_snme_handle_llc_ll_xid_ind, gprs_sndcp_sne_handle_sn_xid_rsp, gprs_sndcp_snme_handle_llc_ll_xid_cnf", "src/sndcp/sndcp_xid.c"]}
{"id": "C71", "title": "SNDCP answers the NSAPI that asked", "statement": "In an MS, every SN-XID.request that is accepted is confirmed to the NSAPI that sent it once LLC confirms the exchange, and every SNSM-ACTIVATE.indication with a valid QoS profile is answered for its own NSAPI, at once or once LLC confirms.", "quantifier": "all histories of activations, deactivations, TLLI changes and XID exchanges, all TLLIs, SAPIs and NSAPIs", "why_tests_cant": "which entity is answered depends on all entities that share the SAPI, i.e. on the whole history", "anchors": ["src/sndcp/sndcp.c gprs_sndcp_snme_handle_llc_ll_xid_cnf", "src/sndcp/sndcp_prim.c gprs_sndcp_prim_handle_sndcp_snsm_activate_ind"]}
{"id": "C72", "title": "SNDCP activation uses the SAPI asked for", "statement": "After an SNSM-ACTIVATE.indication for (TLLI, NSAPI, SAPI) the entity of that TLLI and NSAPI uses that SAPI, so data of the SAPI reaches it.", "quantifier": "all histories and all TLLIs, NSAPIs, SAPIs", "why_tests_cant": "depends on whether the NSAPI was active before with another SAPI", "anchors": ["src/sndcp/sndcp_prim.c gprs_sndcp_prim_handle_sndcp_snsm_activate_ind", "src/sndcp/sndcp.c gprs_sndcp_sne_by_dlci_nsapi"]}
{"id": "C73", "title": "QoS bit rates are decoded as the standard says", "statement": "For every combination of the bit rate octets of a QoS profile for which TS 24.008 defines a rate, decoding yields that rate, absent extension octets counting as zero.", "quantifier": "all octet values of a rate and its two extensions", "why_tests_cant": "2^24 combinations in several ranges", "anchors": ["src/common/qos.c dec_mbr_kbps"]}
{"id": "C74", "title": "QoS transfer delay survives coding", "statement": "For every transfer delay of at least 10 ms, the coded value means the largest expressible delay not above it, and decoding the coded value yields that delay.", "quantifier": "all transfer delays", "why_tests_cant": "range boundaries", "anchors": ["src/common/qos.c enc_transfer_delay_ms", "src/common/qos.c dec_transfer_delay_ms"]}
{"id": "C75", "title": "QoS extension octets are where the standard puts them", "statement": "A peer that reads an encoded QoS profile by TS 24.008 finds, for uplink and downlink, maximum and guaranteed rate, the rate that was encoded.", "quantifier": "all profiles and all four rates", "why_tests_cant": "only visible to an independent reader of the octets, and only for rates that need extension octets", "anchors": ["src/common/qos.c gprs_qos_build_qos_profile", "include/osmocom/gprs/sm/sm_qos.h struct osmo_gprs_sm_qos_profile_data"]}
{"id": "C76", "title": "PDP addresses survive coding", "statement": "Encoding a PDP address and reading the octets by TS 24.008 10.5.6.4 yields the same address, and decoding an element yields the address the standard reads from it.", "quantifier": "all PDP addresses and all element contents", "why_tests_cant": "every combination of type and present addresses; needs an independent reader", "anchors": ["src/sm/sm_pdu.c gprs_sm_pdp_addr_enc_ietf", "src/sm/sm_pdu.c gprs_sm_pdp_addr_dec"]}
{"id": "C77", "title": "Decoding SM messages stays inside the message", "statement": "Whatever octets the network sends as ACTIVATE PDP CONTEXT ACCEPT or REJECT, decoding reads only octets of the message.", "quantifier": "all octet strings and all contexts", "why_tests_cant": "crafted lengths of optional elements", "anchors": ["src/sm/sm.c gprs_sm_rx_act_pdp_ack", "src/sm/sm.c gprs_sm_rx_act_pdp_rej", "src/sm/sm_pdu.c gprs_sm_pdp_addr_dec"]}
{"id": "C78", "title": "ACTIVATE PDP CONTEXT REQUEST says what the user asked for", "statement": "An independent reader of the message by TS 24.008 9.5.1 finds NSAPI, SAPI, QoS, address, access point name labels and protocol configuration options of the request.", "quantifier": "all requests within the limits of the primitive", "why_tests_cant": "all lengths and combinations of optional elements", "anchors": ["src/sm/sm_pdu.c gprs_sm_build_act_pdp_ctx_req"]}
{"id": "C79", "title": "The user is told what the network granted", "statement": "Once an ACTIVATE PDP CONTEXT ACCEPT has been understood, the LLC SAPI, QoS and radio priority handed to SNDCP and reported to the user are those of the message.", "quantifier": "all contexts and all messages", "why_tests_cant": "granted values may differ in length and bits from what was asked", "anchors": ["src/sm/sm.c gprs_sm_rx_act_pdp_ack", "src/sm/sm.c gprs_sm_submit_smreg_pdp_act_cnf", "src/sm/sm.c gprs_sm_submit_snsm_act_ind"]}
{"id": "C80", "title": "A refused SM message changes nothing", "statement": "A message from the network for which an error is returned leaves every PDP context as it was and hands nothing out.", "quantifier": "all histories and all messages", "why_tests_cant": "crafted messages in every state", "anchors": ["src/sm/sm.c gprs_sm_rx", "src/sm/sm.c gprs_sm_rx_act_pdp_ack"]}
{"id": "C81", "title": "SM messages carry the identifiers of their context", "statement": "An ACTIVATE PDP CONTEXT REQUEST is handed to GMM under the session identifier of its context, and the contexts of one mobile station have different transaction identifiers.", "quantifier": "all histories with any number of mobile stations and contexts", "why_tests_cant": "needs more than one context or mobile station, in any order", "anchors": ["src/sm/sm.c gprs_sm_tx_act_pdp_ctx_req", "src/sm/sm.c gprs_sm_entity_alloc"]}
{"id": "C82", "title": "PDP context status deactivates exactly the right contexts", "statement": "When GMM passes on the network's PDP context status, SNDCP is told to deactivate exactly those contexts of that mobile station that the layer holds and the network calls inactive, each once.", "quantifier": "all histories and all status bits", "why_tests_cant": "65536 status values times all sets of contexts", "anchors": ["src/sm/sm.c gprs_sm_handle_ie_pdp_ctx_status", "src/sm/sm_prim.c gprs_sm_prim_handle_gmmsm_modify_ind"]}
{"id": "C83", "title": "The end of an active PDP context is announced", "statement": "When an active PDP context stops being active, the user gets a deactivation indication for it.", "quantifier": "all histories", "why_tests_cant": "all ways an active context can end", "anchors": ["src/sm/sm_ms_fsm.c", "src/sm/sm_prim.c gprs_sm_prim_handle_gmmsm_release_ind", "src/sm/sm_prim.c gprs_sm_prim_handle_snsm_deact_rsp"]}
{"id": "C84", "title": "The SM layer survives every history", "statement": "No history of primitives within their limits, timer expiries and arbitrary messages from the network makes the layer abort or access memory outside its objects.", "quantifier": "all histories", "why_tests_cant": "unbounded histories with crafted messages", "anchors": ["src/sm/sm.c", "src/sm/sm_prim.c", "src/sm/sm_ms_fsm.c"]}
{"id": "C85", "title": "GPRS timer values survive coding", "statement": "A received GPRS timer octet means what TS 24.008 table 10.5.172 says; the octet sent for a duration expresses the longest expressible duration that is not longer, so an expressible duration is sent exactly, and longer durations never become shorter ones.", "quantifier": "all octets and all durations", "why_tests_cant": "range boundaries and the whole range of durations", "anchors": ["src/gmm/gmm_pdu.c: gprs_gmm_gprs_tmr_to_secs, gprs_gmm_secs_to_gprs_tmr"]}
{"id": "C86", "title": "GMM procedures are tried five times", "statement": "Once attach or routing area update has started, it goes on until the fifth expiry of its timer and ends with it, as TS 24.008 4.7.3.1.5 and 4.7.5.1.5 have it, however often procedures ran before.", "quantifier": "all histories and all procedures in them", "why_tests_cant": "counters persist over procedures", "anchors": ["src/gmm/gmm_ms_fsm.c: gmm_ms_fsm_timer_cb, st_gmm_ms_rau_initiated"]}
{"id": "C87", "title": "GMM requests are answered once", "statement": "Each GMMREG-ATTACH.req and GMMSM-ESTABLISH.req that is accepted gets exactly one confirmation, and no confirmation comes unasked.", "quantifier": "all histories of primitives, messages and timers, including primitives refused by neighbours", "why_tests_cant": "needs all interleavings of both services with every outcome", "anchors": ["src/gmm/gmm_ms_fsm.c", "src/gmm/gmm_prim.c"]}
{"id": "C88", "title": "GMM confirmations are truthful", "statement": "A confirmation of an attach or establishment says accepted exactly when the mobile station is registered, and then carries the identities in force.", "quantifier": "all reachable states, all events", "why_tests_cant": "all ways a procedure can end, with arbitrary messages", "anchors": ["src/gmm/gmm_ms_fsm.c", "src/gmm/gmm.c: gprs_gmm_submit_gmmreg_attach_cnf, gprs_gmm_submit_gmmsm_establish_cnf"]}
{"id": "C89", "title": "GMM requests say what was meant", "statement": "ATTACH REQUEST, ROUTING AREA UPDATE REQUEST and DETACH REQUEST, read by the tables of TS 24.008 9.4, contain the type, identity, key sequence number, routing area, timer and capabilities that were put into them.", "quantifier": "all parameter values", "why_tests_cant": "needs an independent reader and all combinations of optional elements", "anchors": ["src/gmm/gmm_pdu.c: gprs_gmm_build_attach_req, gprs_gmm_build_rau_req, gprs_gmm_build_detach_req"]}
{"id": "C90", "title": "GMM tells the network the radio capability", "statement": "The mandatory MS radio access capability of ATTACH REQUEST and ROUTING AREA UPDATE REQUEST is not empty.", "quantifier": "all requests", "why_tests_cant": "needs an independent reader of the message", "anchors": ["src/gmm/gmm_pdu.c: encode_ms_ra_acc_cap"]}
{"id": "C91", "title": "Identity requests are answered with the right identity", "statement": "IDENTITY REQUEST is answered by one IDENTITY RESPONSE with the identity asked for, digit by digit, if it is known, and by nothing otherwise; nothing else changes.", "quantifier": "all entities, identities and requests", "why_tests_cant": "all identities of any length", "anchors": ["src/gmm/gmm.c: gprs_gmm_rx_id_req, gprs_gmm_tx_id_resp", "src/gmm/gmm_pdu.c: gprs_gmm_build_identity_resp"]}
{"id": "C92", "title": "GMM's READY and periodic update timers cover a registered mobile station", "statement": "The periodic update timer runs only while registered and never together with the READY timer; after a transmission a registered mobile station with a periodic timer always has one of the two running, so that it updates in time.", "quantifier": "all histories of events and messages", "why_tests_cant": "the timers' states depend on the whole history", "anchors": ["src/gmm/gmm.c: gprs_gmm_gmme_ready_timer_start, gprs_gmm_gmme_t3312_start, gprs_gmm_rx_att_ack"]}
{"id": "C93", "title": "Detaching is confirmed only when it was asked for", "statement": "GMMREG-DETACH.cnf is given only in answer to GMMREG-DETACH.req, at most once, and the mobile station is then no longer registered.", "quantifier": "all histories of requests and messages", "why_tests_cant": "messages nobody asked for can come at any time", "anchors": ["src/gmm/gmm.c: gprs_gmm_rx_detach_accept", "src/gmm/gmm_ms_fsm.c: gprs_gmm_ms_fsm_ctx_request_detach"]}
{"id": "C94", "title": "Detaching ends", "statement": "A mobile station that is detaching is deregistered after finitely many timer expiries although the network never answers.", "quantifier": "all states in which it is detaching, all sequences of timer expiries", "why_tests_cant": "needs a bound over all schedules of timers", "anchors": ["src/gmm/gmm_ms_fsm.c: gmm_ms_fsm_states, gmm_ms_fsm_timer_cb"]}
{"id": "C95", "title": "Disabling GPRS switches GMM off", "statement": "After GPRS is disabled the entity does nothing in answer to messages from the network until it is enabled again.", "quantifier": "all states and all messages", "why_tests_cant": "the state at the time of disabling is arbitrary", "anchors": ["src/gmm/gmm_prim.c: osmo_gprs_gmm_enable_gprs", "src/gmm/gmm_ms_fsm.c: st_gmm_ms_null"]}
{"id": "C96", "title": "An accepted mobile station becomes registered", "statement": "With GMM on top of RLC/MAC, a mobile station with a P-TMSI that asks to be attached is registered once the network has sent ATTACH ACCEPT, with or without a new P-TMSI, and RLC/MAC knows it under its TLLI.", "quantifier": "all P-TMSIs, parameters and ATTACH ACCEPT messages, any number of attempts", "why_tests_cant": "the two layers are tested separately", "anchors": ["src/gmm/gmm.c: gprs_gmm_rx_att_ack, gprs_gmm_submit_gmmrr_assing_req", "src/rlcmac/rlcmac_prim.c: rlcmac_prim_handle_gmmrr_assign_req, rlcmac_prim_handle_grr_unitdata_req"]}
{"id": "C97", "title": "A detached mobile station leaves nothing behind in RLC/MAC", "statement": "With GMM on top of RLC/MAC, once DETACH ACCEPT has come RLC/MAC does not know the TLLI any more, and the mobile station can attach again and be given the same P-TMSI.", "quantifier": "all histories of the two layers", "why_tests_cant": "the two layers are tested separately", "anchors": ["src/gmm/gmm.c: gprs_gmm_rx_detach_accept", "src/rlcmac/rlcmac_prim.c: rlcmac_prim_handle_gmmrr_assign_req"]}
{"id": "C98", "title": "GMM messages are sent under a valid TLLI", "statement": "Every message GMM sends goes out under the TLLI of creation or the local TLLI of the P-TMSI in force, never under the value that stands for no TLLI.", "quantifier": "all histories of events and messages", "why_tests_cant": "the TLLI in force depends on the whole history", "anchors": ["src/gmm/gmm.c: gprs_gmm_gmme_update_allocated_ptmsi, gprs_gmm_rx_detach_accept"]}
{"id": "C99", "title": "Decoding a message keeps to the result structure", "statement": "The CSN.1 decoder, given any bits, writes only inside the result structure it was given: RLC/MAC downlink and uplink control blocks of 23 octets, the rest octets of immediate assignment, system information 13 and paging requests, and MS radio access capabilities never make it write elsewhere, or read outside its tables.", "quantifier": "all bit strings, all previous contents of the structure, all message types", "why_tests_cant": "the number of inputs is 2^184 for one message type, and the stores depend on counts and nesting inside the message", "anchors": ["src/csn1/csn1_dec.c: osmo_csn1_stream_decode", "src/rlcmac/csn1_ts_44_060.c: osmo_gprs_rlcmac_decode_downlink, osmo_gprs_rlcmac_decode_uplink", "src/rlcmac/csn1_ts_44_018.c", "src/rlcmac/csn1_ts_24_008.c"]}
{"id": "C100", "title": "Decoding a field never overwrites another field", "statement": "When the CSN.1 decoder stores an element of a received message, it stores into the member of the result structure that is meant for this element only; arrays are never filled beyond their end.", "quantifier": "all bit strings, all previous contents of the structure, all message types", "why_tests_cant": "overflows inside the structure do not crash and show only in values nobody compares", "anchors": ["src/csn1/csn1_dec.c: osmo_csn1_stream_decode", "src/rlcmac/csn1_ts_44_060.c: descriptor tables", "include/osmocom/gprs/rlcmac/csn1_defs.h"]}
{"id": "C101", "title": "System information 13 never aborts the process", "statement": "Whatever system information type 13 the network broadcasts, the mobile station's process goes on.", "quantifier": "all rest octets, all previous contents", "why_tests_cant": "needs the one combination of optional parts that puts another value where a timer is expected", "anchors": ["src/rlcmac/rlcmac.c: gprs_rlcmac_handle_bcch_si13, gprs_rlcmac_decode_t3192"]}
{"id": "C102", "title": "Timers follow system information 13", "statement": "After an accepted system information type 13, T3168 and T3192 have the values its cell options ask for.", "quantifier": "all rest octets, all previous contents", "why_tests_cant": "the position of the values depends on optional parts before them", "anchors": ["src/rlcmac/rlcmac.c: gprs_rlcmac_handle_bcch_si13"]}
{"id": "C103", "title": "The SIM's answer is used only for the challenge in force", "statement": "After the network challenges the mobile station, an answer of the SIM is acted upon (keys stored, a response sent) only if it carries the reference number, key sequence number and random number of the challenge that is in force; any other answer is refused and changes nothing.", "quantifier": "all histories of requests, messages, timer expiries and neighbour results, and all answers of the SIM", "why_tests_cant": "A test replays the matching answer; stale or forged answers after arbitrary histories cannot be enumerated.", "anchors": ["src/gmm/gmm_prim.c:gprs_gmm_prim_handle_gmmreg_sim_auth_resp", "src/gmm/gmm.c:gprs_gmm_rx_auth_ciph_req", "src/gmm/gmm.c:t3316_delete_rand_sres_cb"]}
{"id": "C104", "title": "A challenge passed to the SIM is answered to the network", "statement": "When the network challenges the mobile station and the SIM answers that challenge, the network receives a response with the reference number of the challenge and the result the SIM computed, whatever happened in between.", "quantifier": "all histories between the challenge and the answer", "why_tests_cant": "The loss depends on how an expiring timer of an earlier challenge interleaves with a new one.", "anchors": ["src/gmm/gmm_prim.c:gprs_gmm_prim_handle_gmmreg_sim_auth_resp", "src/gmm/gmm.c:gprs_gmm_tx_auth_ciph_resp", "src/gmm/gmm.c:t3316_delete_rand_sres_cb"]}
{"id": "C105", "title": "Session management is told once when its registration is gone", "statement": "The session management entity that asked for the registration receives a release indication exactly once when the mobile station leaves an engaged state (registering, registered, updating, detaching) for the deregistered one, and at no other time.", "quantifier": "all histories and all events", "why_tests_cant": "Each way out of each state after each history would need a test.", "anchors": ["src/gmm/gmm_ms_fsm.c:st_gmm_ms_deregistered_on_enter", "src/gmm/gmm_prim.c:gprs_gmm_prim_handle_gmmsm_establish_req"]}
{"id": "C106", "title": "Pages reach exactly the mobile stations named", "statement": "A paging request type 1 or 2 for packet services makes RLC/MAC indicate a page for each mobile station whose IMSI or P-TMSI it names with a packet paging indication, and for no other.", "quantifier": "all paging requests of 23 octets, all sets of mobile stations", "why_tests_cant": "Every combination of identities, indications and rest octets.", "anchors": ["src/rlcmac/rlcmac.c: gprs_rlcmac_handle_ccch_pag_req1, gprs_rlcmac_handle_ccch_pag_req2"]}
{"id": "C107", "title": "Immediate assignments for others have no effect", "statement": "An immediate assignment whose request reference is not that of a channel request made here, and which names no TLLI of a mobile station here, changes nothing and sends nothing.", "quantifier": "all immediate assignments, all states", "why_tests_cant": "Every message on a shared channel, of which nearly all are for other mobile stations.", "anchors": ["src/rlcmac/rlcmac.c: gprs_rlcmac_handle_ccch_imm_ass, gprs_rlcmac_handle_ccch_imm_ass_ul_tbf"]}
{"id": "C108", "title": "Immediate assignments are obeyed as sent", "statement": "When an immediate assignment is accepted, the channel ordered from the lower layers has the timeslot, training sequence, frequency or hopping parameters and timing advance of the message, and the waiting uplink TBF gets the TFI, USF and starting time the message contains.", "quantifier": "all immediate assignments with packet uplink assignment, all states", "why_tests_cant": "Every combination of optional fields ahead of the starting time.", "anchors": ["src/rlcmac/rlcmac.c: gprs_rlcmac_handle_ccch_imm_ass", "src/rlcmac/tbf_ul_ass_fsm.c: handle_imm_ass"]}
{"id": "C109", "title": "No message on the CCCH aborts the process", "statement": "Whatever 23 octets arrive on the common control channel, in whatever state, the process is not aborted and no memory outside the message and the decoded structures is touched.", "quantifier": "all messages of 23 octets, all states", "why_tests_cant": "All octet strings, sent by anyone with a transmitter.", "anchors": ["src/rlcmac/rlcmac_prim.c: rlcmac_prim_handle_l1ctl_ccch_data_ind", "src/rlcmac/rlcmac_dec.c: TBF_StartingTime_to_fn"]}
{"id": "C110", "title": "The packet data machinery never aborts or touches freed memory", "statement": "Whatever sequence of ready-to-send indications, assignments, acknowledgements, data blocks, confirmations, primitives of the upper layers and timer expiries reaches the RLC/MAC layer of a mobile station, each of them well-formed by itself, the layer neither fails an assertion nor reads memory outside its tables or of an object it has freed.", "quantifier": "all histories of events over any number of mobile stations and TBFs", "why_tests_cant": "Whether an assertion fails depends on the order in which messages of the network, timers and the requests of the upper layers meet; tests try a handful of orders.", "anchors": ["src/rlcmac/sched.c:gprs_rlcmac_rcv_rts_block", "src/rlcmac/sched.c:sched_select_ctrl_msg", "src/rlcmac/rlcmac.c:gprs_rlcmac_handle_pkt_ul_ass", "src/rlcmac/rlcmac.c:gprs_rlcmac_handle_pkt_dl_ass", "src/rlcmac/gre.c:gprs_rlcmac_entity_free", "src/rlcmac/tbf_dl_ass_fsm.c"]}
{"id": "C111", "title": "A poll is answered in the reserved block with what was asked for", "statement": "When the network polls a mobile station (in an uplink assignment, a downlink assignment, an acknowledgement of its data or a downlink data block), the block sent at the reserved timeslot and frame number is the answer to that poll: PACKET CONTROL ACKNOWLEDGEMENT, PACKET DOWNLINK ACK/NACK with the final indication and channel request as due, or PACKET RESOURCE REQUEST for a new uplink TBF.", "quantifier": "all histories, all polls outstanding at their end, and all states of the transfer", "why_tests_cant": "The answer depends on which of several reservations, TBFs and pending assignments meet in the same block.", "anchors": ["src/rlcmac/sched.c:get_ctrl_msg_tbf_candidates", "src/rlcmac/sched.c:sched_select_ctrl_msg", "src/rlcmac/tbf_dl.c:gprs_rlcmac_dl_tbf_create_pkt_dl_ack_nack", "src/rlcmac/tbf_ul_ass_fsm.c:gprs_rlcmac_tbf_ul_ass_create_rlcmac_msg"]}
{"id": "C112", "title": "Reserved polls belong to somebody who is still there", "statement": "At any time no two reservations share a timeslot and a frame number, and the TBF or mobile station that was polled still exists; freeing it drops its reservations.", "quantifier": "all reachable states", "why_tests_cant": "Reservations outlive the message that made them; every way of freeing a TBF has to be combined with every outstanding poll.", "anchors": ["src/rlcmac/pdch_ul_controller.c:gprs_rlcmac_pdch_ulc_release_tbf", "src/rlcmac/tbf.c:gprs_rlcmac_tbf_destructor", "src/rlcmac/gre.c:gprs_rlcmac_entity_free", "src/rlcmac/rlcmac.c:gprs_rlcmac_handle_pkt_dl_ass"]}
{"id": "C113", "title": "A downlink TBF begins at its starting time", "statement": "A downlink assignment without a starting time, or with one that is not later than now, makes the lower layer be configured for the TBF at once. One with a later starting time makes it be configured in that very frame and not before, whatever else happens until then short of another assignment.", "quantifier": "all histories before the assignment, all assignments on the CCCH or PACCH, all histories between assignment and starting time", "why_tests_cant": "The starting time lies thousands of frames ahead and anything may happen in between; tests deliver the indication they know to be needed", "anchors": ["src/rlcmac/tbf_dl_ass_fsm.c: gprs_rlcmac_tbf_start_fn_tick", "src/rlcmac/sched.c: rts_tick", "src/rlcmac/tbf_dl_ass_fsm.c: st_idle, st_wait_tbf_starting_time"]}
{"id": "C114", "title": "A downlink TBF begins with the resources assigned", "statement": "When the lower layer is configured for a downlink TBF, it is with the TFI and exactly the timeslots of the last assignment; an assignment without TFI leaves the TFI of the TBF.", "quantifier": "all histories, all downlink assignments, with any assignment before them waiting or not", "why_tests_cant": "Depends on the assignments that came before", "anchors": ["src/rlcmac/tbf_dl_ass_fsm.c: handle_imm_ass, handle_pkt_dl_ass, st_compl_on_enter", "include/osmocom/gprs/rlcmac/l1ctl_prim.h: CFG_DL_TBF"]}
{"id": "C115", "title": "The packet channel is released when, and only when, nothing uses it", "statement": "The lower layer is asked to release the packet channel only when no mobile station entity has a TBF; and after the last TBF of an entity has ended and its deferral time has passed, it is asked.", "quantifier": "all histories of all entities, all schedules of the timer", "why_tests_cant": "A race of a timer with assignments, over several entities", "anchors": ["src/rlcmac/gre.c: _defer_pkt_idle_timer_cb, gprs_rlcmac_entity_ul_tbf_freed, gprs_rlcmac_entity_dl_tbf_freed"]}
{"id": "C116", "title": "Messages reach only the mobile station they are addressed to", "statement": "A message from the network that names a mobile station by uplink TFI, downlink TFI or TLLI has no effect on any entity that was not given this identity.", "quantifier": "all histories, all messages and identities, any number of entities", "why_tests_cant": "Needs all combinations of states of several entities and identities", "anchors": ["src/rlcmac/rlcmac.c: gprs_rlcmac_find_ul_tbf_by_tfi, gprs_rlcmac_find_dl_tbf_by_tfi, gprs_rlcmac_find_entity_by_tlli", "src/rlcmac/rlcmac.c: gprs_rlcmac_handle_pkt_dl_ass, gprs_rlcmac_handle_pkt_ul_ass"]}
{"id": "C117", "title": "Entities do not disturb each other", "statement": "Every message, primitive or timer has an effect on at most one entity: the TBFs, the reserved uplink blocks and the requests to the lower layer of all others are as if it had not happened.", "quantifier": "all histories, all events, any number of entities", "why_tests_cant": "Any state of any number of entities", "anchors": ["src/rlcmac/rlcmac.c: gprs_rlcmac_handle_dl_ctrl_block", "src/rlcmac/gre.c", "src/rlcmac/sched.c", "src/rlcmac/pdch_ul_controller.c: gprs_rlcmac_pdch_ulc_release_tbf"]}
{"id": "C118", "title": "Encoding a control message gives exactly its bits", "statement": "For every uplink control message structure whose fields are in range and which fits the block, osmo_gprs_rlcmac_encode_uplink() succeeds and the 23 octets consist of the fields of the message in the order of the standard, then a zero bit and the padding pattern 0x2B aligned to octets.", "quantifier": "all contents of the uplink message structure, all message types, all combinations of present and absent elements and list lengths", "why_tests_cant": "The structure has over a thousand octets of members and optional elements nested several levels deep; tests encode a handful of messages.", "anchors": ["src/rlcmac/csn1_enc.c: osmo_csn1_stream_encode", "src/rlcmac/csn1_ts_44_060.c: osmo_gprs_rlcmac_encode_uplink"]}
{"id": "C119", "title": "What is encoded can be decoded to the same message", "statement": "If an uplink message structure is encoded successfully, decoding the block gives a structure in which every member that belongs to the message has its original value; members that do not belong to the message are left alone.", "quantifier": "all contents of the uplink message structure with in-range fields and any previous contents of the structure decoded into", "why_tests_cant": "A round trip must hold for every combination of optional elements, unions, choices and lists, and for messages at and beyond the size of the block.", "anchors": ["src/rlcmac/csn1_enc.c: osmo_csn1_stream_encode", "src/rlcmac/csn1_dec.c: osmo_csn1_stream_decode", "src/rlcmac/csn1_ts_44_060.c: osmo_gprs_rlcmac_encode_uplink, osmo_gprs_rlcmac_decode_uplink"]}
{"id": "C120", "title": "The messages sent have the bits the standard prescribes", "statement": "The blocks sent as PACKET UPLINK DUMMY CONTROL BLOCK, PACKET CONTROL ACKNOWLEDGEMENT, PACKET RESOURCE REQUEST and PACKET DOWNLINK ACK/NACK consist, bit for bit, of the header, the identity (TLLI or TFI), the window report, the channel request and the absent-flags in the order of 3GPP TS 44.060, then padding.", "quantifier": "every TLLI, TFI, final indication, starting sequence number, bitmap, and channel request with any priority and octet count", "why_tests_cant": "There are 2^32 identities times 2^64 bitmaps; a test compares a few captured blocks.", "anchors": ["src/rlcmac/rlcmac_enc.c: gprs_rlcmac_enc_prepare_pkt_ul_dummy_block, gprs_rlcmac_enc_prepare_pkt_resource_req, gprs_rlcmac_enc_prepare_pkt_downlink_ack_nack, gprs_rlcmac_enc_prepare_pkt_ctrl_ack"]}
{"id": "C121", "title": "Every uplink message type can be encoded without undefined behaviour", "statement": "Encoding an uplink message structure of any known message type never reads outside of the structure's members and succeeds if the fields are in range and the message fits.", "quantifier": "all known uplink message types and all structures with in-range fields", "why_tests_cant": "An overread of a few octets inside a larger structure is invisible to a test; it has to be excluded for every message type and list length.", "anchors": ["src/rlcmac/csn1_enc.c: osmo_csn1_stream_encode", "src/rlcmac/csn1_ts_44_060.c: Packet_Pause_t"]}
{"id": "C122", "title": "Every conforming downlink message is understood", "statement": "A downlink control block with a known message type, with or without the optional header octets, whose bits are the fields of a message in the order of the table, is decoded to exactly these field values; members of the structure that are not part of the message keep their previous values.", "quantifier": "all downlink message types, all field values, optional elements, choices and list lengths, all combinations of optional header octets, any previous contents of the structure", "why_tests_cant": "The network may send any combination of optional elements; tests decode a few captured messages.", "anchors": ["src/rlcmac/csn1_dec.c: osmo_csn1_stream_decode", "src/rlcmac/csn1_ts_44_060.c: osmo_gprs_rlcmac_decode_downlink"]}
{"id": "C123", "title": "Assignments and acknowledgements received mean what the network sent", "statement": "A downlink control block that carries a PACKET DOWNLINK ASSIGNMENT, a PACKET UPLINK ASSIGNMENT with dynamic allocation or a PACKET UPLINK ACK/NACK in the bit layout of the standard is taken for exactly that: the TFI, TLLI, starting time, timeslots, USFs, acknowledgement bits and the reservation of an answer that the station acts on are those in the message, whatever optional header octets and optional elements surround them.", "quantifier": "every combination of optional elements, every value of every element, every header with or without optional octets, every state of the station", "why_tests_cant": "The number of combinations of optional elements and values is astronomically large; tests hold a handful of recorded blocks.", "anchors": ["src/rlcmac/rlcmac.c:gprs_rlcmac_handle_gprs_dl_ctrl_block", "src/rlcmac/csn1_ts_44_060.c:osmo_gprs_rlcmac_decode_downlink", "src/rlcmac/tbf_dl_ass_fsm.c:handle_pkt_dl_ass", "src/rlcmac/tbf_ul_ass_fsm.c:handle_pkt_ul_ass", "src/rlcmac/tbf_ul.c:gprs_rlcmac_ul_tbf_handle_pkt_ul_ack_nack"]}
{"id": "C124", "title": "Contention resolution succeeds only with the station's own TLLI", "statement": "In one-phase access, a PACKET UPLINK ACK/NACK that does not carry the TLLI of the station does not end contention resolution: the timer T3166 runs on, or the TBF ends.", "quantifier": "every history of the station, every acknowledgement, every header", "why_tests_cant": "Two stations whose random access requests collide are needed, and the outcome depends on every bit of the TLLI; tests acknowledge the station they run.", "anchors": ["src/rlcmac/tbf_ul.c:gprs_rlcmac_ul_tbf_handle_pkt_ul_ack_nack", "src/rlcmac/tbf_ul_fsm.c:_contention_resolution_succeeded", "src/rlcmac/tbf_ul.c:gprs_rlcmac_ul_tbf_in_contention_resolution"]}
{"id": "C125", "title": "Control messages that are not understood have no effect", "statement": "A downlink control block of a message type that the station does nothing with, or an acknowledgement in EGPRS format, changes nothing, whatever the rest of the block holds.", "quantifier": "every block of 23 octets with such a message type, every history of the station", "why_tests_cant": "There are 2^176 such blocks; each of them goes through the decoder of its message type before it is dropped.", "anchors": ["src/rlcmac/rlcmac.c:gprs_rlcmac_handle_gprs_dl_ctrl_block", "src/rlcmac/rlcmac.c:gprs_rlcmac_handle_pkt_ul_ack_nack", "src/rlcmac/csn1_ts_44_060.c:osmo_gprs_rlcmac_decode_downlink"]}
{"id": "C126", "title": "A packet compressed with V.42bis is expanded to the same packet", "statement": "With a dictionary size of 512 to 4096, a longest string of 6 to 250 octets and compression on for the direction, each on both sides: any packet is compressed to a packet that is not longer, and the other side expands it to the original packet, in any buffer with room for it.", "quantifier": "every packet of any length and content, every P0, P1 and P2 within these bounds", "why_tests_cant": "Both sides build the dictionary on their own while the data passes, switch between transparent and compressed mode, widen codewords and recycle entries; a difference in one entry garbles all that follows. Tests compress a few packets.", "anchors": ["src/sndcp/sndcp_dcomp.c:v42bis_compress_unitdata", "src/sndcp/sndcp_dcomp.c:v42bis_expand_unitdata", "src/sndcp/v42bis.c:v42bis_compress", "src/sndcp/v42bis.c:v42bis_decompress", "src/sndcp/v42bis.c:v42bis_compress_flush"]}
{"id": "C127", "title": "Expanding arbitrary octets with V.42bis is memory safe and ends", "statement": "Whatever octets are received as a V.42bis compressed packet, expanding them ends, with a result or an error, and accesses no memory outside of the dictionary and the buffers of the state.", "quantifier": "every sequence of octets, every dictionary size and longest string that the initialization accepts", "why_tests_cant": "The receiver has no influence on the octets; the codewords index an array and follow links in it. Tests expand what a compressor made.", "anchors": ["src/sndcp/v42bis.c:v42bis_decompress", "src/sndcp/v42bis.c:expand_codeword_to_string", "src/sndcp/v42bis.c:add_octet_to_dictionary", "src/sndcp/v42bis.c:match_octet", "src/sndcp/v42bis.c:v42bis_init"]}
{"id": "C128", "title": "An expanded packet fits into the buffer for it", "statement": "A packet that was compressed with V.42bis is expanded within the buffer of ten times the size of the compressed packet and 64 octets.", "quantifier": "every packet, every dictionary size and longest string within the bounds of the standard and of this implementation", "why_tests_cant": "The compression ratio depends on the whole packet; it is high only for long and repetitive packets.", "anchors": ["src/sndcp/sndcp.c:decompress_segment", "src/sndcp/sndcp_dcomp.c:rx_v42bis_data_handler", "src/sndcp/sndcp_dcomp.c:v42bis_expand_unitdata"]}
{"id": "C129", "title": "TCP/IP header compression gives back every packet", "statement": "If header compression according to RFC 1144 is used with the same number of slots (1 to 255) on both sides and everything sent arrives in order, then every well-formed IPv4 packet handed to the compressor comes out of the expansion octet for octet as it was, whatever packets of whatever connections came before, and what is sent for it is not longer than the packet.", "quantifier": "all numbers of slots from 1 to 255, all sequences of well-formed IPv4 packets (TCP or not, all options, all payloads, all interleavings of connections, more connections than slots), all contents of the buffer behind the received octets", "why_tests_cant": "Each packet is coded as a difference to the last packet of its slot, and which slot is used depends on the whole history; a test sees a few packets of one or two connections, and wrong bits show up only after a particular pair of headers.", "anchors": ["src/sndcp/slhc.c: slhc_compress, slhc_uncompress, slhc_remember, encode, decode, ip_fast_csum", "src/sndcp/sndcp_pcomp.c: rfc1144_compress, rfc1144_expand"]}
{"id": "C130", "title": "Loss of a packet harms only its own slot, until the next full header", "statement": "If packets are lost between compressor and expander, then a packet that arrives still comes out unchanged if it was sent without compression or as a full header, or if it was sent compressed and no packet of its slot was lost since the last full header of this slot. No other loss, and no packet rebuilt wrongly in another slot, changes that.", "quantifier": "all numbers of slots, all sequences of well-formed IPv4 packets, all patterns of losses", "why_tests_cant": "It is about all patterns of losses in all histories of several connections; a test tries one loss.", "anchors": ["src/sndcp/slhc.c: slhc_compress, slhc_uncompress, slhc_remember", "src/sndcp/sndcp_pcomp.c: rfc1144_compress, rfc1144_expand"]}
{"id": "C131", "title": "Compression of headers is safe for all packets", "statement": "Compressing the headers of any sequence of packets of any octets never reads or writes outside a buffer, never loops for ever, and never gives more octets than the packet has.", "quantifier": "all numbers of slots, all sequences of packets of any length and content", "why_tests_cant": "The packets come from applications and may be malformed; lengths inside the header decide what is read.", "anchors": ["src/sndcp/slhc.c: slhc_compress", "src/sndcp/sndcp_pcomp.c: rfc1144_compress"]}
{"id": "C132", "title": "Expansion of headers is safe for all received packets", "statement": "Expanding the headers of any sequence of received packets, in the buffer that the library allocates for each (ten times the packet and 64 octets), never reads or writes outside this buffer or the array of slots.", "quantifier": "all numbers of slots, all sequences of packets of any octets with any header compression index", "why_tests_cant": "The packets come from the network and may be hostile; whether the buffer is large enough depends on the header stored by an earlier packet.", "anchors": ["src/sndcp/slhc.c: slhc_uncompress, slhc_remember", "src/sndcp/sndcp_pcomp.c: rfc1144_expand", "src/sndcp/sndcp.c: decompress_segment"]}
{"id": "C133", "title": "Compressed packets of a slot without a header are discarded", "statement": "A received compressed packet that names a slot for which no full header was received before, or a slot that does not exist, is discarded: no packet is delivered for it.", "quantifier": "all numbers of slots, all histories of received packets, all compressed packets with a slot number", "why_tests_cant": "It depends on the whole history of received packets.", "anchors": ["src/sndcp/slhc.c: slhc_uncompress"]}
{"id": "C134", "title": "After a refused packet, compressed packets without a slot number are discarded", "statement": "After a received packet with compressed or full header was refused, all following compressed packets that do not name their slot are discarded until one that names its slot or a full header arrives.", "quantifier": "all histories of received packets, all refused packets, all sequences of compressed packets without a slot number", "why_tests_cant": "It is about all histories and all ways in which a packet can be refused.", "anchors": ["src/sndcp/slhc.c: slhc_uncompress, slhc_remember"]}
{"id": "C135", "title": "Header compression can be used with every negotiated number of slots", "statement": "Whatever number of slots was negotiated with the network (S0-1 from 0 to 255, one octet of the XID parameter), the compression entity that is created can compress every well-formed packet.", "quantifier": "all values of S0-1 from 0 to 255, all well-formed packets", "why_tests_cant": "A test uses one value; the boundary value fails.", "anchors": ["src/sndcp/sndcp_pcomp.c: gprs_sndcp_pcomp_init", "src/sndcp/slhc.c: slhc_init, slhc_compress"]}
{"id": "C136", "title": "The payloads of a radio block lie where the standard puts them and survive being written and read", "statement": "For every coding scheme, direction and padding, each payload of a radio block lies at the bit position of TS 44.060, the last payload ends with the block and the block fits its buffer. Writing a payload changes exactly the bits of its place; reading it (also after the other payload of an MCS-7 to MCS-9 block was written) returns the octets written, whatever the block held before.", "quantifier": "all coding schemes CS-1 to CS-4 and MCS-1 to MCS-9, both directions, with and without padding, all block contents, all payloads, both orders of writing two payloads", "why_tests_cant": "Payloads are not octet aligned: the property is about every bit of every payload and of its neighbours.", "anchors": ["src/rlcmac/rlcmac_enc.c: gprs_rlcmac_rlc_copy_from_aligned_buffer", "src/rlcmac/rlcmac_dec.c: gprs_rlcmac_rlc_copy_to_aligned_buffer", "src/rlcmac/rlc.c: gprs_rlcmac_rlc_data_info_init_ul, gprs_rlcmac_rlc_data_info_init_dl", "src/rlcmac/coding_scheme.c: mcs_info, hdr_type_info"]}
{"id": "C137", "title": "The header of an EGPRS block tells how every payload was coded and punctured", "statement": "However often, with whatever commanded schemes and in whatever combination with other blocks an EGPRS block was sent before, its transmission does not abort, and the coding and puncturing scheme indicator of the radio block it is sent in means exactly the coding scheme, padding and puncturing schemes used for the payloads.", "quantifier": "all EGPRS schemes and payloads, all histories of transmissions (alone, repeated, resegmented, first or second of two), all commanded schemes, all pairs of blocks", "why_tests_cant": "The puncturing scheme of a transmission depends on the whole history of the block.", "anchors": ["src/rlcmac/rlc.c: gprs_rlcmac_rlc_mcs_cps, gprs_rlcmac_get_punct_scheme, gprs_rlcmac_update_punct_scheme", "src/rlcmac/tbf_ul.c: create_ul_acked_block, take_next_bsn"]}
{"id": "C138", "title": "Length indicators of EGPRS blocks are read as the standard defines, and nothing outside the block", "statement": "For every EGPRS payload the parser reads no octet outside of the payload, and the chunks it reports are, in order and without overlap, exactly the pieces of LLC PDUs that TS 44.060 defines for the length indicators (zero in the first one only, 127 for filling). Only payloads with malformed indicators or more pieces than the caller has room for are rejected.", "quantifier": "all payloads of at least 17 octets (every EGPRS payload has 22 to 74), both values of the E bit, last block or not", "why_tests_cant": "The indicators are chosen by the network: the property is about every octet string.", "anchors": ["src/rlcmac/rlcmac_dec.c: gprs_rlcmac_rlc_data_from_dl_data, parse_extensions_egprs"]}
{"id": "C139", "title": "Retransmissions of EGPRS blocks use the puncturing schemes of the standard", "statement": "Each transmission of a block uses the puncturing scheme that TS 44.060 prescribes after the previous one: the next in cyclic order with the same coding scheme, and the one of table 9.3.2.1.1.1 after a change of coding scheme (the second half of a resegmented block uses that of the first).", "quantifier": "all EGPRS blocks, all histories of transmissions, all commanded schemes", "why_tests_cant": "Incremental redundancy depends on the sequence of all transmissions of a block.", "anchors": ["src/rlcmac/rlc.c: gprs_rlcmac_get_punct_scheme, gprs_rlcmac_update_punct_scheme", "src/rlcmac/tbf_ul.c: create_ul_acked_block"]}
{"id": "C140", "title": "Resegmented EGPRS blocks carry every octet of the payload, in order", "statement": "Each transmission of a block carries its whole payload, or the first half with the scheme of half the size, or, right after the first half and with the same coding and puncturing scheme, the second half; the split block indicator says which.", "quantifier": "all EGPRS blocks, all histories of transmissions, all commanded schemes, with and without incremental redundancy", "why_tests_cant": "It depends on the commands between the transmission of the two halves.", "anchors": ["src/rlcmac/tbf_ul.c: egprs_ul_get_data, get_egprs_ul_spb, create_ul_acked_block", "src/rlcmac/coding_scheme.c: gprs_rlcmac_get_retx_mcs"]}
{"id": "C141", "title": "A primitive handed to the library is freed exactly once", "statement": "Every primitive handed to one of the functions that take primitives (upper_down, lower_up, dispatch_snsm, … of LLC, SNDCP, SM, GMM and RLC/MAC) is freed exactly once and not touched after that, whatever its SAP, type and operation and whatever the state of the layer: it is never freed twice, read after it was freed, or leaked.", "quantifier": "every entry point, every header (SAP, type, operation) and every outcome of the handlers", "why_tests_cant": "The handlers for primitives a layer does not support are rarely exercised, and a double free or a leak need not show in a test that passes; the claim is about every header.", "anchors": ["src/llc/llc_prim.c:osmo_gprs_llc_prim_lower_up", "src/sndcp/sndcp_prim.c:osmo_gprs_sndcp_prim_upper_down", "src/sndcp/sndcp_prim.c:osmo_gprs_sndcp_prim_lower_up", "src/sndcp/sndcp_prim.c:osmo_gprs_sndcp_prim_dispatch_snsm", "src/sm/sm_prim.c:osmo_gprs_sm_prim_upper_down", "src/gmm/gmm_prim.c:osmo_gprs_gmm_prim_upper_down", "src/rlcmac/rlcmac_prim.c:osmo_gprs_rlcmac_prim_upper_down"]}
{"id": "C142", "title": "A callback that returns 1 keeps the primitive", "statement": "A primitive the library hands to a registered callback is freed by the library exactly once if the callback returns anything but 1; if it returns 1 the primitive is the callback's and the library does not touch it any more; 1 is not passed on to the caller.", "quantifier": "every registered callback and every value it may return", "why_tests_cant": "Tests use callbacks that return 0 (or the same value each time); the claim is about every callback and every value.", "anchors": ["src/llc/llc_prim.c:gprs_llc_prim_call_up_cb", "src/sndcp/sndcp_prim.c:gprs_sndcp_prim_call_up_cb", "src/sm/sm_prim.c:gprs_sm_prim_call_up_cb", "src/gmm/gmm_prim.c:gprs_gmm_prim_call_up_cb", "src/rlcmac/rlcmac_prim.c:gprs_rlcmac_prim_call_up_cb"]}
{"id": "C143", "title": "Packets to the mobile station arrive unchanged and in order over a lossy radio link", "statement": "N-PDUs (1 to 1502 octets) handed to SNDCP on the network side, sent through LLC and over any number of downlink TBFs, whose blocks may be lost and sent again, reordered and repeated, come out of the mobile station's SNDCP exactly once, unchanged and in order; at any time before, what has come out is a beginning of them.", "quantifier": "every list of N-PDUs, every state of the connection in which the ends agree, every placing of the frames in radio blocks and every history of losses, repetitions and reordering within the window", "why_tests_cant": "A test runs one layer with a few packets and a handful of losses; the claim is about the composition of three layers over all histories of the radio link.", "anchors": ["src/sndcp/sndcp.c:gprs_sndcp_sne_handle_sn_unitdata_req", "src/sndcp/sndcp.c:gprs_sndcp_sne_handle_llc_ll_unitdata_ind", "src/llc/llc.c:gprs_llc_lle_tx_ui", "src/llc/llc.c:gprs_llc_lle_rx_unitdata_ind", "src/rlcmac/tbf_dl.c:gprs_rlcmac_dl_tbf_rcv_data_block"]}
{"id": "C144", "title": "Packets from the mobile station arrive unchanged and in order", "statement": "N-PDUs (1 to 1502 octets) handed to the mobile station's SNDCP, sent through LLC and cut into the blocks of any number of uplink TBFs, are delivered by a receiver that follows TS 44.060 and the SNDCP and LLC of the network side exactly once, unchanged and in order, when all blocks reach the network (which RLC's retransmissions see to).", "quantifier": "every list of N-PDUs, every state of the connection in which the ends agree, every division of the frames among TBFs, all block sizes and all moments at which frames are queued", "why_tests_cant": "A test sends a few packets with one coding scheme; the claim is about all lengths and all ways in which frames meet block boundaries.", "anchors": ["src/sndcp/sndcp.c:gprs_sndcp_sne_handle_sn_unitdata_req", "src/llc/llc.c:gprs_llc_lle_tx_ui", "src/rlcmac/tbf_ul.c:create_new_bsn", "src/rlcmac/rlcmac_enc.c:gprs_rlcmac_enc_append_ul_data"]}
{"id": "C145", "title": "Acknowledged uplink transfer is reliable over a lossy link", "statement": "Whatever uplink RLC data blocks and Packet Uplink Ack/Nack messages the radio link loses or delays (without changing their order), with a network receiver that works as in 3GPP TS 44.060: the network never holds, as the n-th block of the TBF, anything but what the mobile station composed as its n-th block (no confusion of sequence numbers modulo 128, no retransmission with other contents); requests for blocks never fail; and when the mobile station is told that the transfer is complete, or its window holds no unacknowledged block, the network has every block.", "quantifier": "every history of requests for blocks (any coding scheme, countdown value and TLLI), new LLC frames, blocks and reports arriving or lost, in any interleaving and with any number of them under way", "why_tests_cant": "The histories are unbounded, with wrap-around of the sequence numbers; only a joint invariant of sender, both directions of the link and receiver covers them.", "anchors": ["src/rlcmac/tbf_ul.c:gprs_rlcmac_ul_tbf_data_create", "src/rlcmac/tbf_ul.c:take_next_bsn", "src/rlcmac/tbf_ul.c:create_new_bsn", "src/rlcmac/tbf_ul.c:create_ul_acked_block", "src/rlcmac/tbf_ul.c:gprs_rlcmac_ul_tbf_handle_pkt_ul_ack_nack", "src/rlcmac/rlc_window_ul.c:gprs_rlcmac_rlc_ul_window_update"]}
{"id": "C146", "title": "An uplink transfer comes to its end once the link is good", "statement": "From every state an uplink TBF can get into, with whatever losses and delays before: if from then on nothing gets lost, no further frame is added and the network reports after each block, the transfer is complete after finitely many blocks, whichever coding schemes are used. (Timers and counters that give up the TBF are left out.)", "quantifier": "every reachable state of the TBF, the link and the network, and every continuation by rounds without loss", "why_tests_cant": "A liveness claim about all reachable states; a test can only run single histories for a bounded time.", "anchors": ["src/rlcmac/tbf_ul.c:take_next_bsn", "src/rlcmac/tbf_ul.c:restart_bsn_cycle", "src/rlcmac/tbf_ul.c:create_new_bsn", "src/rlcmac/rlc_window_ul.c:gprs_rlcmac_rlc_ul_window_mark_for_resend", "src/rlcmac/rlc_window_ul.c:gprs_rlcmac_rlc_ul_window_resend_needed"]}
{"id": "C147", "title": "Packets survive the whole stack over a lossy uplink", "statement": "N-PDUs given to SNDCP at the mobile station, sent through LLC and RLC/MAC in any number of uplink TBFs over a radio link that loses and delays blocks and reports, come out at the other end exactly once, unchanged and in order, when the mobile station is told that each TBF is complete; at any earlier time a first part of them has come out.", "quantifier": "every sequence of N-PDUs of 1 to 1502 octets, every division into TBFs and blocks, every history of losses and delays", "why_tests_cant": "Composes four layers over unbounded histories.", "anchors": ["src/sndcp/sndcp.c:gprs_sndcp_sne_handle_sn_unitdata_req", "src/llc/llc.c:gprs_llc_lle_tx_ui", "src/rlcmac/tbf_ul.c:gprs_rlcmac_ul_tbf_data_create", "src/rlcmac/rlcmac_enc.c:gprs_rlcmac_enc_append_ul_data"]}
{"id": "C148", "title": "Frames given at any time arrive through one uplink TBF after the other", "statement": "A mobile station that is given frames at any time sends them in one uplink TBF after the other; a frame that comes during the countdown of a TBF waits for the next one. Over a link that loses and delays blocks and reports, with the network commanding coding schemes, nothing fails, each TBF comes to its end once nothing is lost any more, and what the network puts together are the first of the frames, unchanged and in order, all that the TBFs so far took once the last of them is over.", "quantifier": "all histories of frames, blocks, losses, reports, coding scheme commands and TBFs, all TBF parameters", "why_tests_cant": "Combines countdown, window, segmentation and losses over unbounded histories.", "anchors": ["src/rlcmac/tbf_ul.c: gprs_rlcmac_ul_tbf_data_create, create_new_bsn, gprs_rlcmac_ul_tbf_handle_pkt_ul_ack_nack, gprs_rlcmac_ul_tbf_calculate_cv", "src/rlcmac/tbf_ul_fsm.c"]}
{"id": "C149", "title": "Packets sent at any time over a lossy uplink are delivered", "statement": "N-PDUs that the mobile station is given at any time and sends in one uplink TBF after the other, over a link that loses and delays blocks and reports, are delivered in the network exactly once, unchanged and in order; all of them once the last TBF is over.", "quantifier": "all sequences of N-PDUs, all histories of the radio link and of the TBFs", "why_tests_cant": "The loss of a packet depends on sizes, timeslots and the moment frames arrive, across four layers.", "anchors": ["src/sndcp/sndcp.c", "src/llc/llc_ll.c", "src/rlcmac/tbf_ul.c"]}
{"id": "C150", "title": "A downlink transfer over a lossy link is reliable", "statement": "While the network sends the blocks of a downlink TBF, repeating those the mobile station's reports say are missing, over a link that loses and delays blocks and reports, nothing fails; the LLC frames handed up are a beginning of those sent, in order, each once and unaltered; they include everything the network takes to have arrived; and once the mobile station's final acknowledgement has reached the network, they are all the frames sent.", "quantifier": "all transfers, all histories of sent, lost and delayed blocks and reports", "why_tests_cant": "Acknowledgement errors show only when particular blocks and reports are lost in a particular order around the wrap of the block numbers.", "anchors": ["src/rlcmac/tbf_dl.c:gprs_rlcmac_dl_tbf_rcv_data_block", "src/rlcmac/rlc_window_dl.c", "src/rlcmac/rlcmac_enc.c:gprs_rlcmac_enc_prepare_pkt_ack_nack_desc_gprs", "src/rlcmac/tbf_dl_fsm.c"]}
{"id": "C151", "title": "A downlink transfer comes to its end", "statement": "However many blocks and reports were lost, once nothing is lost any more the network, repeating the lowest block not acknowledged, gets the final acknowledgement of the mobile station after finitely many rounds.", "quantifier": "all states a transfer can get into", "why_tests_cant": "A deadlock needs a particular loss pattern of a whole window.", "anchors": ["src/rlcmac/rlc_window_dl.c:gprs_rlcmac_rlc_dl_window_raise_v_r", "src/rlcmac/tbf_dl.c:gprs_rlcmac_dl_tbf_rcv_data_block"]}
{"id": "C152", "title": "Packets over a lossy downlink are delivered", "statement": "N-PDUs that the network sends through SNDCP, LLC and one downlink TBF after the other, over a link that loses and delays blocks and reports, are delivered in the mobile station exactly once, unchanged and in order, once the network has been told that each TBF is complete; at any earlier time those delivered are the first ones.", "quantifier": "all sequences of N-PDUs, all histories of the radio link", "why_tests_cant": "The delivery of a packet depends on the order of losses across four layers.", "anchors": ["src/sndcp/sndcp.c", "src/llc/llc_ll.c", "src/rlcmac/tbf_dl.c", "src/rlcmac/rlc_window_dl.c"]}
{"id": "C153", "title": "A request to go to standby is honoured", "statement": "A GMM message of the network that carries Force to standby with the value 'force to standby indicated' stops the READY timer of the mobile station, whichever of the messages that have this element it is; any other value leaves the READY timer of a message that does not otherwise concern it alone.", "quantifier": "all histories of a mobile station, all messages ATTACH ACCEPT, DETACH ACCEPT, ROUTING AREA UPDATE ACCEPT and REJECT, IDENTITY REQUEST, P-TMSI REALLOCATION COMMAND and AUTHENTICATION AND CIPHERING REQUEST that are formed as TS 24.008 says, all values of the element", "why_tests_cant": "the element is in either half of an octet, depending on the message; tests use the value 0, which is the same in both", "anchors": ["src/gmm/gmm.c: gprs_gmm_rx_att_ack", "src/gmm/gmm.c: gprs_gmm_rx_detach_accept", "src/gmm/gmm.c: gprs_gmm_rx_rau_acc", "src/gmm/gmm.c: gprs_gmm_rx_rau_rej", "src/gmm/gmm.c: gprs_gmm_rx_id_req", "src/gmm/gmm.c: gprs_gmm_rx_ptmsi_realloc_cmd", "src/gmm/gmm.c: gprs_gmm_rx_auth_ciph_req"]}
{"id": "C154", "title": "The network can reallocate the P-TMSI, with or without a signature", "statement": "After a well-formed P-TMSI REALLOCATION COMMAND the P-TMSI, the local TLLI derived from it, the routing area and, if there is one, the signature of the command are in force; LLC and RLC/MAC are told the new TLLI, and P-TMSI REALLOCATION COMPLETE is sent under it.", "quantifier": "all histories, P-TMSIs, routing areas and signatures, with or without the optional element", "why_tests_cant": "tests send one fixed command without the optional element", "anchors": ["src/gmm/gmm.c: gprs_gmm_rx_ptmsi_realloc_cmd", "src/gmm/gmm.c: gprs_gmm_gmme_update_allocated_ptmsi"]}
{"id": "C155", "title": "An authentication request is answered with an authentication message", "statement": "All that a mobile station sends to the network in answer to AUTHENTICATION AND CIPHERING REQUEST is AUTHENTICATION AND CIPHERING RESPONSE or AUTHENTICATION AND CIPHERING FAILURE.", "quantifier": "all histories, all requests including malformed ones, all results of the neighbouring layers", "why_tests_cant": "the failures need requests or callbacks that tests do not produce", "anchors": ["src/gmm/gmm.c: gprs_gmm_rx_auth_ciph_req", "src/gmm/gmm.c: gprs_gmm_tx_auth_ciph_fail", "src/gmm/gmm_pdu.c: gprs_gmm_build_auth_ciph_fail"]}
{"id": "C156", "title": "An acceptance nobody asked for is ignored", "statement": "ATTACH ACCEPT has no effect on a mobile station that is not attaching, and ROUTING AREA UPDATE ACCEPT has none on one that is not updating: nothing is changed and nothing is handed out.", "quantifier": "all histories, all such messages, all results of the neighbouring layers", "why_tests_cant": "the histories in which a message comes too late or twice are unbounded; tests send each message in the state it is meant for", "anchors": ["src/gmm/gmm.c: gprs_gmm_rx_att_ack", "src/gmm/gmm.c: gprs_gmm_rx_rau_acc", "src/gmm/gmm_ms_fsm.c: gprs_gmm_ms_fsm_states"]}
{"id": "C157", "title": "A message that is refused changes nothing", "statement": "If a GMM message is refused as invalid and nothing is handed out for it, then the mobile station's identity, routing area, timers and procedures are as they were.", "quantifier": "all histories and all octet strings", "why_tests_cant": "the ways in which a message can be malformed after a valid beginning are unbounded", "anchors": ["src/gmm/gmm.c: gprs_gmm_rx", "src/gmm/gmm.c: gprs_gmm_rx_att_ack", "src/gmm/gmm.c: gprs_gmm_rx_rau_acc"]}
{"id": "C158", "title": "Mobile stations do not disturb each other", "statement": "With any number of mobile stations in the GMM layer, there is never more than one for an IMSI, and what is seen of each of them is what can be seen of a mobile station alone: whatever is guaranteed for one mobile station holds for each of several.", "quantifier": "all histories of primitives, messages and timers of any number of mobile stations", "why_tests_cant": "the stations are found by searching one shared list; tests run one station", "anchors": ["src/gmm/gmm.c: gprs_gmm_gmme_find_or_create_by_ptmsi_imsi, gprs_gmm_find_gmme_by_imsi, osmo_gprs_gmm_enable_gprs", "src/gmm/gmm_prim.c: gprs_gmm_prim_handle_gmmreg_attach_req, gprs_gmm_prim_llc_upper_up"]}
{"id": "C159", "title": "A primitive reaches the mobile station it is for", "statement": "A primitive that names exactly one mobile station by the P-TMSI, TLLI, session, challenge or, for a registration, IMSI in force reaches that one and no other; one that names nobody changes nothing and is refused.", "quantifier": "all histories, all primitives, any number of mobile stations", "why_tests_cant": "depends on which P-TMSIs the network has given to whom before", "anchors": ["src/gmm/gmm.c: gprs_gmm_find_gmme_by_ptmsi, gprs_gmm_find_gmme_by_tlli, gprs_gmm_find_gmme_by_sess_id, gprs_gmm_gmme_update_allocated_ptmsi", "src/gmm/gmm_prim.c: gprs_gmm_prim_handle_gmmreg_detach_req, gprs_gmm_prim_llc_upper_up"]}
{"id": "C160", "title": "A new mobile station has a TLLI of its own", "statement": "When a registration brings in a mobile station and P-TMSIs have the form 3GPP TS 23.003 prescribes, it has a random TLLI, or the foreign TLLI of its P-TMSI, that no other mobile station has or had before.", "quantifier": "all histories, P-TMSIs and random numbers, any number of mobile stations", "why_tests_cant": "collisions of random numbers with TLLIs in use do not happen in tests", "anchors": ["src/gmm/gmm.c: gprs_gmm_alloc_rand_tlli, gprs_gmm_gmme_alloc"]}
{"id": "C161", "title": "GPRS can be switched on and off", "statement": "While GPRS is enabled no mobile station is in GMM-NULL; while it is disabled, requests for registration and timers lead to no message.", "quantifier": "all histories, any number of mobile stations in any state", "why_tests_cant": "the state of each station at the time of the switch depends on the whole history", "anchors": ["src/gmm/gmm.c: osmo_gprs_gmm_enable_gprs", "src/gmm/gmm_ms_fsm.c: st_gmm_ms_deregistered, gmm_ms_fsm_states"]}
{"id": "C162", "title": "A mobile station that the network accepts becomes registered, also when it has been attached before", "statement": "While GMM runs on top of this library's LLC, an ATTACH ACCEPT (with or without a new P-TMSI) that LLC delivers to a mobile station that is being attached makes GMM report the attach and send ATTACH COMPLETE, provided that the neighbours other than LLC accept the primitives they are given. LLC knows the mobile station's TLLI from the first ATTACH REQUEST on.", "quantifier": "Every history of GMM primitives, timers, received LL-PDUs and operations of the other users of LLC; every accept message, P-TMSI and identity.", "why_tests_cant": "The two libraries are tested apart from each other; whether the TLLI GMM names is one that LLC knows depends on the whole history of attach, detach and reallocation.", "anchors": ["src/gmm/gmm.c:gprs_gmm_rx_att_ack", "src/gmm/gmm.c:gprs_gmm_rx_detach_accept", "src/gmm/gmm.c:gprs_gmm_gmme_update_allocated_ptmsi", "src/llc/llc_llgmm.c:llc_prim_handle_llgmm_assign_req", "src/llc/llc_ll.c:llc_prim_handle_ll_unitdata_req"]}
{"id": "C163", "title": "A PDP context can be activated end to end", "statement": "For every mobile station number, NSAPI, QoS and P-TMSI: when the user asks a freshly initialised device (session management over GMM) for a PDP context and the network accepts the attach and then the context, and SNDCP answers, ACTIVATE PDP CONTEXT REQUEST for that NSAPI has been sent under the mobile station's new TLLI and the user gets SMREG-PDP_ACT.cnf (accepted).", "quantifier": "all mobile station numbers, NSAPIs 5 to 15, QoS and PCO values, P-TMSIs, attach and activation answers of the network", "why_tests_cant": "Tests run SM and GMM alone with hand-made primitives, so the identifier one layer gives and the other looks up never meet; the claim ranges over all numbers a user may choose", "anchors": ["src/sm/sm.c:gprs_sm_tx_act_pdp_ctx_req", "src/sm/sm_prim.c:gprs_sm_prim_handle_gmmsm", "src/gmm/gmm_prim.c:gprs_gmm_prim_handle_gmmsm_unitdata_req", "src/gmm/gmm.c:gprs_gmm_find_gmme_by_sess_id"]}
{"id": "C164", "title": "A mobile station sends activation requests for its own PDP contexts only", "statement": "In every history of a device with session management over GMM, whenever a mobile station hands ACTIVATE PDP CONTEXT REQUEST for an NSAPI to LLC, its own user has asked for a PDP context with that NSAPI.", "quantifier": "all histories of user requests, timers, SNDCP answers and GMM events for any number of mobile stations", "why_tests_cant": "It concerns interleavings of several mobile stations' procedures through two layers; unit tests use one mobile station per layer", "anchors": ["src/sm/sm.c:gprs_sm_tx_act_pdp_ctx_req", "src/gmm/gmm_prim.c:gprs_gmm_prim_handle_gmmsm_unitdata_req", "src/gmm/gmm.c:gprs_gmm_find_gmme_by_sess_id"]}
{"id": "C165", "title": "PDP contexts end with the registration", "statement": "In every history of a device with session management over GMM, a mobile station that is deregistered has no active PDP context.", "quantifier": "all histories of user requests, timers, SNDCP answers and GMM events for any number of mobile stations and PDP contexts", "why_tests_cant": "Needs every order of activations and detaches across two layers and several contexts", "anchors": ["src/gmm/gmm_ms_fsm.c:st_gmm_ms_deregistered_on_enter", "src/gmm/gmm_prim.c:gprs_gmm_prim_handle_gmmsm_establish_req", "src/sm/sm_prim.c:gprs_sm_prim_handle_gmmsm_release_ind", "src/sm/sm_ms_fsm.c:st_sm_ms_pdp_active"]}
{"id": "C166", "title": "A PDP context reported active carries packets", "statement": "In every history of a device with SM, GMM and SNDCP, at the moment the user is told (SMREG-PDP_ACT.cnf, accepted) that a PDP context is active, SNDCP takes SN-UNITDATA.req for its NSAPI under the TLLI the mobile station has.", "quantifier": "all histories of user requests, network messages, timers and XID exchanges, for any number of mobile stations and contexts", "why_tests_cant": "Three layers each keep the TLLI of their own; only interleavings of reallocations with activations, over all layers at once, show whether they agree", "anchors": ["src/sm/sm_prim.c:gprs_sm_prim_handle_snsm_act_resp", "src/sm/sm.c", "src/sndcp/sndcp_prim.c:gprs_sndcp_prim_handle_sndcp_snsm_activate_ind", "src/gmm/gmm.c:gprs_gmm_rx_ptmsi_realloc_cmd", "src/llc/llc_llgmm.c"]}
{"id": "C167", "title": "A PDP context that has ended carries no packets", "statement": "In every history of a device with SM, GMM and SNDCP, SNDCP takes packets only for NSAPIs for which there is a PDP context that has not ended.", "quantifier": "all histories of user requests, network messages, timers and XID exchanges, for any number of mobile stations and contexts", "why_tests_cant": "Every way a context can end (network, detach, failed attach, status element) has to be followed through three layers", "anchors": ["src/sm/sm_prim.c:gprs_sm_prim_handle_gmmsm_release_ind", "src/sm/sm_prim.c:gprs_sm_prim_handle_gmmsm_modify_ind", "src/sndcp/sndcp_prim.c:gprs_sndcp_prim_handle_sndcp_snsm_deactivate_ind", "src/sm/sm_ms_fsm.c"]}
{"id": "C168", "title": "An activation the network accepts is reported to the user", "statement": "For every permitted request: when the user of a freshly initialised device asks for a PDP context, the network accepts the mobile station with a new P-TMSI and then accepts the PDP context, the user is told that it is active.", "quantifier": "all requests, routing areas, P-TMSIs, SAPIs, radio priorities and granted QoS profiles", "why_tests_cant": "The QoS profile passes through four encodings in three layers; tests use one profile and one layer", "anchors": ["src/sm/sm.c:gprs_sm_rx_act_pdp_ack", "src/sm/sm.c:gprs_sm_submit_snsm_act_ind", "src/sndcp/sndcp_prim.c:gprs_sndcp_prim_handle_sndcp_snsm_activate_ind", "src/gmm/gmm.c:gprs_gmm_rx_att_ack"]}
{"id": "C169", "title": "From switching on to packets in both directions", "statement": "For every request the device can hold: when the user of a freshly initialised device with session management, mobility management, SNDCP and LLC asks for a PDP context, the network accepts the mobile station with a new P-TMSI and then the PDP context, every message of the device leaves in an LLC frame, the user is told that the PDP context is active, and then any sequence of packets gets through unchanged and in order from the device to a network that knows the new TLLI, and from that network to the device.", "quantifier": "all requests, routing areas, P-TMSIs, user SAPIs, radio priorities, granted QoS profiles, LLC contexts of the network and sequences of packets of up to 1502 octets", "why_tests_cant": "Five layers with identifiers and counters of their own take part; the tests of each layer replace the others by stubs", "anchors": ["src/llc/llc_ll.c:llc_prim_handle_ll_unitdata_req", "src/llc/llc.c:gprs_llc_lle_tx_ui", "src/sm/sm_pdu.c:gprs_sm_build_act_pdp_ctx_req", "src/gmm/gmm.c:gprs_gmm_rx_att_ack", "src/sndcp/sndcp.c:gprs_sndcp_sne_alloc"]}
{"id": "C170", "title": "A packet the peer compressed as agreed is handed up as it was", "statement": "When the station has accepted the peer's proposal to compress data with V.42bis in both directions on an NSAPI, every packet that the peer compresses with the agreed parameters and marks with the agreed compression value is handed up as the original packet; and packets that are not compressed are handed up unchanged.", "quantifier": "all proposals, configurations, parameters, packets and histories of SN-PDUs", "why_tests_cant": "The negotiation, the segmentation and the compressor are each tested alone; nothing exercises a compressed packet after a negotiation", "anchors": ["src/sndcp/sndcp.c:any_pcomp_or_dcomp_active", "src/sndcp/sndcp.c:gprs_sndcp_sne_handle_llc_ll_unitdata_ind", "src/sndcp/sndcp.c:gprs_sndcp_sne_handle_sn_unitdata_req", "src/sndcp/sndcp_comp.c:gprs_sndcp_comp_add"]}
{"id": "C171", "title": "Received data blocks are taken for what was sent", "statement": "Every GPRS data block that the network puts together as TS 44.060 says (any USF, polling, power reduction, TFI, final block indicator, block number, extension bit, payload and spare bits, coding schemes CS-1 to CS-4) is taken by a mobile station with exactly these fields and this payload, and is answered in the reserved block exactly if it polls; a transfer in which the blocks travel as octets goes on as one in which they travel as they are; and no octets whatsoever, of any length, make the station read or write outside of them or be taken for a data block although they are not one.", "quantifier": "all header fields, payloads, spare bits, frame numbers; all octet strings as received blocks; all transfers", "why_tests_cant": "2^24 headers times all payloads times all four sizes, and the hostile blocks are all octet strings of all lengths", "anchors": ["src/rlcmac/rlcmac_prim.c: rlcmac_prim_handle_l1ctl_pdch_data_ind", "src/rlcmac/rlcmac.c: gprs_rlcmac_handle_gprs_dl_block, gprs_rlcmac_handle_gprs_dl_data_block", "src/rlcmac/rlcmac_dec.c: gprs_rlcmac_rlc_parse_dl_data_header, gprs_rlcmac_rlc_copy_to_aligned_buffer"]}
{"id": "C172", "title": "Sent data blocks are what the network reads", "statement": "In a transfer with one of the coding schemes CS-1 to CS-4, whatever the radio link loses or delays, every data block leaves in octets that the network reads, as TS 44.060 says, as a block with the TFI of the TBF, the block's number, countdown value, TLLI indicator, extension bit and payload, and with a stall indicator that tells whether the transmit window is stalled.", "quantifier": "all histories of a transfer; all coding schemes, TFIs, TLLIs, countdown values and frames", "why_tests_cant": "the stall indicator matters in states that take 64 unacknowledged blocks to reach, and the fields are a product of all values", "anchors": ["src/rlcmac/tbf_ul.c: create_ul_acked_block", "src/rlcmac/rlcmac_enc.c: gprs_rlcmac_rlc_write_ul_data_header, gprs_rlcmac_rlc_copy_from_aligned_buffer", "src/rlcmac/rlc.c: gprs_rlcmac_rlc_data_header_init"]}
{"id": "C173", "title": "Uplink data blocks are read as what they consist of", "statement": "A user of the library that reads uplink data blocks gets, for every block of CS-1 as TS 44.060 lays it out, all header fields, all length indicators, TLLI, PFI and data; and reading any 23 octets does no harm.", "quantifier": "all uplink data blocks of 23 octets, with any number of length indicators; all octet strings of that length", "why_tests_cant": "the length indicators form a chain whose length is decided by the octets of the sender; harm comes with those longer than the arrays", "anchors": ["src/rlcmac/csn1_ts_44_060.c: osmo_gprs_rlcmac_decode_uplink_data", "include/osmocom/gprs/rlcmac/csn1_defs.h: RlcMacUplinkDataBlock_t, MAX_NUMBER_LLC_PDU"]}
{"id": "C174", "title": "Downlink data blocks put into octets for a user are received as the user said", "statement": "A downlink data block that a user of the library has put into octets is taken by a mobile station with the TFI, final block indicator, block number and extension bit the user gave, with the length indicators up to the last one and as much of the data as there is room for as payload, and is answered exactly if the user asked for it.", "quantifier": "all values of all fields, all chains of length indicators that end within the five entries, all data; all frame numbers but those of the PTCCH", "why_tests_cant": "the writer and the reader are different pieces of code, and the fields are a product of all values", "anchors": ["src/rlcmac/csn1_ts_44_060.c: osmo_gprs_rlcmac_encode_downlink_data", "src/rlcmac/rlcmac_prim.c: rlcmac_prim_handle_l1ctl_pdch_data_ind", "src/rlcmac/rlcmac_dec.c: gprs_rlcmac_rlc_parse_dl_data_header"]}
{"id": "C175", "title": "EGPRS packet channel requests are told as what they are", "statement": "Reading an EGPRS packet channel request (11 bits) gives the kind of request and the fields the table of 3GPP TS 44.060 gives it: multislot class, number of blocks, multislot class group, priority and random bits, whatever the structure held before and whatever bits stand above the eleven. Anything the table does not list is refused.", "quantifier": "all 16 bit values, all prior contents of the structure, all requests of the table", "why_tests_cant": "Codes of different lengths share a number space: a wrong order or overlap of the alternatives misreads only some numbers.", "anchors": ["src/rlcmac/csn1_ts_44_060.c: osmo_gprs_rlcmac_decode_egprs_pkt_ch_req", "src/rlcmac/csn1_ts_44_060.c: EGPRS_PacketChannelRequest_t"]}
{"id": "C176", "title": "A downlink control message is encoded to its header, its parts in order and padding", "statement": "Encoding a filled-in downlink structure gives the octets of the header of 3GPP TS 44.060 10.3.1 (with the optional octets announced by payload type, AC, RBSN and FS), then the bits of the members of the message in the order of its table, then the padding pattern, whatever the vector contained before.", "quantifier": "all structures of all message types whose message fits, all headers, all prior vector contents", "why_tests_cant": "Which parts are present depends on the values of other members; the space of structures is not enumerable.", "anchors": ["src/rlcmac/csn1_ts_44_060.c: osmo_gprs_rlcmac_encode_downlink", "src/csn1/csn1_enc.c: osmo_csn1_stream_encode"]}
{"id": "C177", "title": "A downlink control message that was encoded is received as what it is", "statement": "Whatever a user acting as the network encodes without an error is decoded by the station to the same message type, the same values of all members of the message and the same header fields.", "quantifier": "all structures and headers, all prior contents of the receiving structure", "why_tests_cant": "Encoder and decoder walk tables with data-dependent branches independently of each other; agreement on samples says nothing about the other combinations.", "anchors": ["src/rlcmac/csn1_ts_44_060.c: osmo_gprs_rlcmac_encode_downlink, osmo_gprs_rlcmac_decode_downlink", "include/osmocom/gprs/rlcmac/csn1_defs.h: PSI13_t"]}
{"id": "C178", "title": "Encoding a downlink control message has no undefined behaviour", "statement": "Encoding a structure of a known downlink message type never reads outside of the members of the structure and never follows an invalid pointer.", "quantifier": "all structures of all message types", "why_tests_cant": "An access outside of a member inside a larger structure shows in no test result.", "anchors": ["src/rlcmac/csn1_ts_44_060.c: osmo_gprs_rlcmac_encode_downlink, PHO_RadioResources_t", "include/osmocom/gprs/rlcmac/csn1_defs.h: PHO_RadioResources_t"]}
{"id": "C179", "title": "Every XID command of the peer takes effect and is reported", "statement": "Every XID command of the peer that arrives intact takes effect and is reported: the N201-U and N201-I it gives are adopted and no other parameter is changed; the user gets exactly one LL-XID.ind, with the Layer-3 parameters and the sizes now in use, if there are Layer-3 parameters or a size changed, and none otherwise. Without Layer-3 parameters exactly one XID frame with the same parameters is sent back at once; with them none is sent, until the user answers, and then the answer goes out in place of the Layer-3 parameters with the others as the peer gave them.", "quantifier": "all ends of the link, entity states, XID commands with at most 16 parameters of legal values given once each, and answers of the user", "why_tests_cant": "Tests negotiate one or two parameter sets; which combinations of parameters are reported, and with which values, concerns all of them in all states.", "anchors": ["src/llc/llc.c:gprs_llc_lle_process_xid_ind", "src/llc/llc.c:gprs_llc_lle_tx_xid_resp", "src/llc/llc_ll.c:gprs_llc_lle_submit_prim_ll_xid_ind"]}
{"id": "C180", "title": "The size the peer agreed to is obeyed", "statement": "After an XID frame of the peer, a command or the response to the last XID command, that gives N201-U, no LL-UNITDATA.req of more octets than that is transmitted; one that fits is.", "quantifier": "all ends of the link, entity states, XID frames of the peer with a value for N201-U, and later requests of any size", "why_tests_cant": "The sizes of requests and the values of N201-U are far too many; the response case is only noticed by a peer that answers with another value than proposed.", "anchors": ["src/llc/llc.c:gprs_llc_lle_process_xid_ind", "src/llc/llc.c:gprs_llc_lle_process_xid_conf", "src/llc/llc.c:gprs_llc_lle_tx_ui"]}
{"id": "C181", "title": "Every LLC parameter in use was given by the standard or by the peer", "statement": "Whatever the users ask for and the peers send, at any time and for every TLLI and SAPI the LLC parameters in use are the default values of 3GPP TS 44.064 table 9, but for N201-U and N201-I, each of which is the default or was given by an intact XID command received for the same SAPI. Without XID commands of the peer all are the defaults.", "quantifier": "all histories of requests of the users and frames of the peers, all TLLIs and SAPIs", "why_tests_cant": "A parameter that leaks from one SAPI to another, or that is taken from a damaged frame, needs a particular order of events; tests see a few.", "anchors": ["src/llc/llc.c:llc_default_params", "src/llc/llc.c:gprs_llc_lle_process_xid_ind", "src/llc/llc.c:gprs_llc_lle_rx_unitdata_ind", "src/llc/llc.c:gprs_llc_llme_alloc"]}
{"id": "C182", "title": "Every downlink TBF is supervised by a running timer", "statement": "In every reachable state of the RLC/MAC layer each downlink TBF has T3190 or T3192 running, T3192 only when all of its data has been received, and the expiry of a timer that runs ends the TBF and touches the downlink TBF of no other mobile station: no downlink TBF can live for ever without blocks from the network.", "quantifier": "every history of messages, blocks, requests and timers, every entity and its downlink TBF", "why_tests_cant": "a TBF whose timers were all stopped is never released, and only an invariant over all histories excludes that some sequence leads there", "anchors": ["src/rlcmac/tbf_dl.c: gprs_rlcmac_dl_tbf_t3190_start, t3190_timer_cb, t3192_timer_cb, gprs_rlcmac_dl_tbf_rcv_data_block", "src/rlcmac/tbf_dl_fsm.c", "src/rlcmac/rlcmac.c: gprs_rlcmac_handle_pkt_dl_ass"]}
{"id": "C183", "title": "Downlink TBFs begin, change and end only as specified", "statement": "Whatever happens, the downlink TBF of a mobile station stays as it is unless an assignment starts a new one (T3190 running), a data block with its TFI arrives (T3190 restarted, finished after the last block), its final PACKET DOWNLINK ACK/NACK is sent (T3190 stopped, T3192 started), a running timer expires, a PACKET DOWNLINK ASSIGNMENT with Control Ack arrives while T3192 runs, or the mobile station is given up; and each of these has that effect.", "quantifier": "every reachable state, every event and every entity", "why_tests_cant": "the events that must not touch a TBF are all the others in all states, which no set of scenarios covers", "anchors": ["src/rlcmac/tbf_dl_fsm.c: st_flow, st_finished, st_finished_on_enter", "src/rlcmac/tbf_dl.c: gprs_rlcmac_dl_tbf_update_tlli, gprs_rlcmac_dl_tbf_free", "src/rlcmac/rlcmac.c: gprs_rlcmac_handle_pkt_dl_ass, handle_gprs_dl_block", "src/rlcmac/tbf_dl_ass_fsm.c"]}
{"id": "C184", "title": "An MS radio access capability is written exactly as its fields say", "statement": "Every MS radio access capability that fits the buffer given is written to it, whatever the buffer contained: each entry as its access technology, the length of its content and the fields of 3GPP TS 24.008 in order, a bit between entries and behind the last, and the padding pattern of the protocol in the rest of the buffer.", "quantifier": "all structures of 1 to 11 entries, all values of all fields, all lengths and contents of the buffer", "why_tests_cant": "39 fields, most of them optional and of several bits each, in up to 11 entries, with lengths computed from what is present; tests write a few capabilities of real phones.", "anchors": ["src/rlcmac/csn1_ts_24_008.c:osmo_gprs_rlcmac_encode_ms_ra_cap", "src/csn1/csn1_enc.c:osmo_csn1_stream_encode"]}
{"id": "C185", "title": "Radio access capabilities of older and newer releases are understood", "statement": "From every MS radio access capability in the long form the decoder takes the access technology and all fields the sender sent. Fields that senders of older releases do not know come out as zero or absent, bits that senders of newer releases add to an entry are skipped, and the following entries are found in their place, whatever the structure contained before and whatever follows in the buffer.", "quantifier": "all lists of 1 to 11 entries, each ending behind any field or continued with any bits, all values, all previous contents of the structure, all buffers", "why_tests_cant": "The number of combinations of releases, fields present and values is astronomical; tests decode a few recorded capabilities.", "anchors": ["src/rlcmac/csn1_ts_24_008.c:osmo_gprs_rlcmac_decode_ms_ra_cap", "src/csn1/csn1_dec.c:osmo_csn1_stream_decode", "src/rlcmac/csn1_ts_24_008.c:Content_Dissector"]}
{"id": "C186", "title": "A radio access capability that does not fit its buffer is refused, and others are read back", "statement": "Writing an MS radio access capability succeeds if and only if the buffer is long enough for all of it; and whenever it succeeds, decoding the buffer gives back every member that was sent and changes no other member.", "quantifier": "all structures of 1 to 11 entries in either form, all lengths and contents of the buffer, all previous contents of the structure read into", "why_tests_cant": "Fields may be left out silently where the buffer ends; whether the result is an error depends on the exact number of bits left at each of some forty optional fields.", "anchors": ["src/rlcmac/csn1_ts_24_008.c:osmo_gprs_rlcmac_encode_ms_ra_cap", "src/rlcmac/csn1_ts_24_008.c:osmo_gprs_rlcmac_decode_ms_ra_cap", "src/csn1/csn1_enc.c:osmo_csn1_stream_encode"]}
{"id": "C187", "title": "A standing queue is shortened in time", "statement": "If the packets taken out of a queue under CoDel are late one after the other, the first one taken out two intervals or more after the first late one is dropped at the latest; and a queue manager that never dropped a packet drops none earlier than that.", "quantifier": "all configured intervals, all histories of packets before, all numbers and times of late packets", "why_tests_cant": "Depends on the times of all packets since the last one that was in time.", "anchors": ["src/rlcmac/codel.c:gprs_codel_control"]}
{"id": "C188", "title": "Ciphering that was agreed is used", "statement": "When LLC has been given a ciphering algorithm other than GEA/0 for a TLLI, LL-UNITDATA requests to be ciphered are sent in UI frames that say they are ciphered and do not show the data; and data received in frames that say they are ciphered is never handed up as it came.", "quantifier": "all histories of requests and received frames, all algorithms, keys, SAPIs and data", "why_tests_cant": "Needs the state left by every possible history; the tests use GEA/0 only.", "anchors": ["src/llc/llc_llgmm.c:llc_prim_handle_llgmm_assign_req", "src/llc/llc.c:gprs_llc_lle_tx_ui, gprs_llc_lle_rx_unitdata_ind, apply_gea"]}
{"id": "C189", "title": "Every PDP context a user asks for is requested from the network", "statement": "In every history of a device with session management over GMM and one mobile station: when the mobile station is registered and its user asks for a PDP context at an NSAPI that is free, ACTIVATE PDP CONTEXT REQUEST for that NSAPI is handed to LLC. In particular a mobile station can have more than one PDP context.", "quantifier": "all configurations, identities, histories of user requests, timers, network messages and answers of the neighbours, all mobile station numbers and requests", "why_tests_cant": "the order and number of requests before the one in question decide; tests ask for the first PDP context of mobile station 0 only", "anchors": ["src/sm/sm.c:gprs_sm_tx_act_pdp_ctx_req", "src/sm/sm.c:gprs_sm_entity_alloc", "src/gmm/gmm_prim.c:gprs_gmm_prim_handle_gmmsm_establish_req", "src/gmm/gmm_prim.c:gprs_gmm_prim_handle_gmmsm_unitdata_req", "src/gmm/gmm.c:gprs_gmm_find_gmme_by_sess_id"]}
{"id": "C190", "title": "A PDP context is reported active only if it was requested from the network", "statement": "In every history of a device with session management over GMM and one mobile station, whose network sends ACTIVATE PDP CONTEXT ACCEPT only after a request and whose SNDCP answers only what it was asked: when the user is told that the PDP context at an NSAPI is active, ACTIVATE PDP CONTEXT REQUEST for that NSAPI had been handed to LLC.", "quantifier": "all configurations, identities, histories of user requests, timers, network messages and answers of the neighbours that behave as described, all NSAPIs", "why_tests_cant": "it takes a request made while another is unanswered; tests activate one context from beginning to end", "anchors": ["src/sm/sm.c:gprs_sm_rx", "src/sm/sm.c:gprs_sm_rx_act_pdp_ack", "src/sm/sm_prim.c:gprs_sm_prim_handle_gmmsm_unitdata_ind", "src/gmm/gmm_prim.c:gprs_gmm_prim_alloc_gmmsm_unitdata_ind", "src/gmm/gmm_prim.c:gprs_gmm_prim_handle_gmmsm_establish_req"]}
{"id": "C191", "title": "Optional elements the library makes no use of do not make an accept be refused", "statement": "When a mobile station accepts an ATTACH ACCEPT or ROUTING AREA UPDATE ACCEPT with optional elements, it also accepts the message with one more element of type 4 that 3GPP TS 24.008 allows there and that the library makes no use of (T3302, emergency numbers, MBMS context status, T3319, T3323, T3312 extended, equivalent PLMNs, additional network features, T3324, extended DRX), with any contents, and does the same.", "quantifier": "all configurations, reachable states, accepted messages, elements of the list, contents of up to 255 octets, answers of the neighbours", "why_tests_cant": "every combination of message, state, element and contents counts; tests use messages recorded from one network", "anchors": ["src/gmm/gmm.c:gprs_gmm_rx_att_acc", "src/gmm/gmm.c:gprs_gmm_rx_rau_acc", "src/gmm/gmm_pdu.c:gprs_gmm_att_tlvdef"]}
{"id": "C192", "title": "Optional elements the library makes no use of do not make the answer to a PDP context request be refused", "statement": "When session management accepts an ACTIVATE PDP CONTEXT ACCEPT or REJECT, it also accepts the message with one more element of type 4 that 3GPP TS 24.008 allows there and that the library makes no use of (ACCEPT: packet flow identifier, SM cause, NBIFOM container; REJECT: back-off timer, re-attempt indicator, NBIFOM container), with any contents, and does the same.", "quantifier": "all histories of session management, sessions, messages accepted, elements of the lists, contents of up to 255 octets", "why_tests_cant": "every combination of message, state, element and contents counts; the test uses one message of each kind", "anchors": ["src/sm/sm.c:gprs_sm_rx_act_pdp_ack", "src/sm/sm.c:gprs_sm_rx_act_pdp_rej", "src/sm/sm_pdu.c:gprs_sm_att_tlvdef"]}
{"id": "C193", "title": "The PDP context status reported is that of the message received", "statement": "When GMM receives ROUTING AREA UPDATE ACCEPT and reports a PDP context status to session management, the message contains a PDP context status element with that value.", "quantifier": "all configurations, reachable states, messages, answers of the neighbours", "why_tests_cant": "it takes two messages, of which only the first has the element, and every state in between; tests send one", "anchors": ["src/gmm/gmm.c:gprs_gmm_rx_rau_acc", "src/gmm/gmm.c:gprs_gmm_submit_gmmsm_modify_ind", "src/sm/sm.c:gprs_sm_handle_ie_pdp_ctx_status"]}
{"id": "C194", "title": "An uplink EGPRS block says which LLC data it carries", "statement": "When an uplink EGPRS data block is filled with LLC data, a receiver that reads its length indicators as TS 44.060 lays down for EGPRS (seven bits of length and the extension bit) finds in it exactly the octets taken from the LLC queue, with the boundaries between the frames in their places.", "quantifier": "all payload lengths of the EGPRS coding schemes, countdown values, with and without TLLI, and queues of LLC frames", "why_tests_cant": "The boundaries depend on the lengths of the frames and on the space left; a test has a few, and compares with octets obtained from the code itself.", "anchors": ["src/rlcmac/rlcmac_enc.c: gprs_rlcmac_enc_append_ul_data, gprs_rlcmac_rlc_data_to_ul_append_egprs_li_padding", "src/rlcmac/tbf_ul.c: create_new_bsn"]}
{"id": "C195", "title": "The READY timer is the one the network assigned", "statement": "After an ATTACH ACCEPT or ROUTING AREA UPDATE ACCEPT and a transmission, the READY timer of the mobile station runs as the network said: for the number of seconds given; not at all if that is zero, with the periodic update timer running instead; without end if the READY timer function is deactivated, so that the periodic update timer does not run; for the duration asked for if the network gives none.", "quantifier": "all histories of a mobile station up to the accept, all accepts with and without a negotiated READY timer value, all values", "why_tests_cant": "One octet has three units, a deactivated state and a zero, and its effect depends on which timers run; tests use one value.", "anchors": ["src/gmm/gmm.c: gprs_gmm_rx_att_ack, gprs_gmm_rx_rau_acc, gprs_gmm_gmme_ready_timer_start, gprs_gmm_gmme_t3312_start", "src/gmm/misc.c: gprs_gmm_gprs_tmr_to_secs"]}
{"id": "C196", "title": "The uplink window tells truly which blocks are not acknowledged", "statement": "The number of blocks not acknowledged that the uplink window reports, and the letters it shows for the blocks from the oldest one not acknowledged to the newest one sent, agree at all times with what was sent and what the network acknowledged; there are never more letters than fit their buffer.", "quantifier": "all histories of requests to send and of Packet Uplink Ack/Nack messages with arbitrary contents", "why_tests_cant": "The numbers are counted modulo 128 and the window slides over its array; agreement with the whole history needs an invariant.", "anchors": ["src/rlcmac/rlc_window_ul.c: gprs_rlcmac_rlc_ul_window_count_unacked, gprs_rlcmac_rlc_ul_window_show_state"]}
{"id": "C197", "title": "The EGPRS bitmap reports exactly the received blocks", "statement": "The received block bitmap made for EGPRS has one bit for every block above the lowest missing one and below the highest received one, in order, which is set exactly if the block has been received.", "quantifier": "all histories of received blocks of a sender that keeps to its window, with fewer than 63 blocks lost in a row", "why_tests_cant": "Depends on where the window lies in the number space, including its wrapping around, and on the order of arrival.", "anchors": ["src/rlcmac/rlc_window_dl.c: gprs_rlcmac_rlc_dl_window_update_rbb_egprs"]}
{"id": "C198", "title": "A mobile station the network has turned away does not come back at once", "statement": "After ATTACH REJECT with a cause that makes the SIM invalid for GPRS (illegal MS, illegal ME, GPRS services not allowed, GPRS and other services not allowed), or with a back-off time T3346 that is not zero, a request to attach that follows at once does not make the mobile station ask the network again. The rejected attempt is over, the user is told the cause, and nothing is sent by itself.", "quantifier": "all configurations, reachable states in which an attach is under way, causes, values of T3346, requests and answers of the neighbours", "why_tests_cant": "the forbidden request can follow any history; tests show single sequences", "anchors": ["src/gmm/gmm.c:gprs_gmm_rx_att_rej", "src/gmm/gmm_ms_fsm.c:st_gmm_ms_registered_initiated", "src/gmm/gmm_prim.c:gprs_gmm_prim_handle_gmmreg_attach_req"]}
{"id": "C199", "title": "The network can detach a mobile station", "statement": "A registered mobile station that gets DETACH REQUEST from the network, with or without having to attach again, answers with DETACH ACCEPT and is no longer registered; one that gets AUTHENTICATION AND CIPHERING REJECT is no longer registered either. A rejected routing area update ends the registration unless the cause says otherwise.", "quantifier": "all configurations, reachable states, kinds of detach, causes and answers of the neighbours", "why_tests_cant": "the message can come after any history and in any state", "anchors": ["src/gmm/gmm.c:gprs_gmm_rx", "src/gmm/gmm.c:gprs_gmm_rx_auth_ciph_rej", "src/gmm/gmm.c:gprs_gmm_rx_rau_rej", "src/gmm/gmm_ms_fsm.c:st_gmm_ms_registered", "include/osmocom/gprs/gmm/gmm_prim.h:OSMO_GPRS_GMM_GMMREG_DETACH"]}
{"id": "C200", "title": "The network can deactivate a PDP context", "statement": "An active PDP context whose deactivation the network requests with DEACTIVATE PDP CONTEXT REQUEST ends, and DEACTIVATE PDP CONTEXT ACCEPT is sent. A context that the network calls inactive in its PDP context status ends too, once SNDCP has released it, and the user is told.", "quantifier": "all histories, sessions, transaction identifiers, causes and PDP context statuses", "why_tests_cant": "the message can come after any history and in any state of the other contexts", "anchors": ["src/sm/sm.c:gprs_sm_rx", "src/sm/sm_prim.c:gprs_sm_prim_handle_gmmsm_modify_ind", "src/sm/sm_ms_fsm.c:st_sm_ms_pdp_active", "include/osmocom/gprs/sm/sm_prim.h:OSMO_GPRS_SM_SMREG_PDP_DEACTIVATE"]}
{"id": "C201", "title": "The user learns that the registration has ended", "statement": "When a registered mobile station ceases to be registered and the user did not ask for it, the user of the library gets a primitive that says so. Session management is told of every end of a registration it has asked for.", "quantifier": "all configurations, reachable states, events, messages and answers of the neighbours", "why_tests_cant": "the registration can end after any history, with any of many causes", "anchors": ["src/gmm/gmm_ms_fsm.c:st_gmm_ms_rau_initiated", "src/gmm/gmm.c:gprs_gmm_rx_rau_rej", "src/gmm/gmm_prim.c:osmo_gprs_gmm_prim_alloc_gmmreg_detach_ind", "include/osmocom/gprs/gmm/gmm_prim.h:OSMO_GPRS_GMM_GMMREG_DETACH"]}
