{"Verif.Props.c01_fcs_is_crc24": ["Classical.choice", "Quot.sound", "propext"], "Verif.Props.c02_burst_detected": ["Classical.choice", "Quot.sound", "propext"], "Verif.Props.c03_mac_refused": ["propext"], "Verif.Props.c03_ui_roundtrip": ["Classical.choice", "Quot.sound", "propext"], "Verif.Props.c04_u_roundtrip_partial": ["Classical.choice", "Quot.sound", "propext"], "Verif.Props.c04_u_roundtrip_violated": ["propext"], "Verif.Props.c05_is_roundtrip_partial": ["Classical.choice", "Quot.sound", "propext"], "Verif.Props.c05_violated_ack_req": ["Quot.sound", "propext"], "Verif.Props.c05_violated_rnr": ["Quot.sound", "propext"], "Verif.Props.c05_violated_sack": ["Quot.sound", "propext"], "Verif.Props.c06_decoder_safe_partial": ["Classical.choice", "Quot.sound", "propext"], "Verif.Props.c06_decoder_safe_violated": ["propext"], "Verif.Props.c06_violated_overflow": ["propext"], "Verif.Props.c06_violated_underflow": ["propext"], "Verif.Props.c07_xid_encode_in_bounds": ["Quot.sound", "propext"], "Verif.Props.c07_xid_roundtrip": ["Classical.choice", "Quot.sound", "propext"], "Verif.Props.c08_xid_decode_valid": ["Classical.choice", "Quot.sound", "propext"], "Verif.Props.c09_consecutive_nu": ["Classical.choice", "Quot.sound", "propext"], "Verif.Props.c100_downlink_partial": ["Classical.choice", "Quot.sound", "propext"], "Verif.Props.c100_rest_partial": ["Classical.choice", "Quot.sound", "propext"], "Verif.Props.c100_uplink_partial": ["Classical.choice", "Quot.sound", "propext"], "Verif.Props.c100_violated": ["Quot.sound", "propext"], "Verif.Props.c100_violated_downlink": ["propext"], "Verif.Props.c100_violated_rest": ["propext"], "Verif.Props.c100_violated_uplink": ["propext"], "Verif.Props.c101_bits_partial": ["Classical.choice", "Quot.sound", "propext"], "Verif.Props.c101_partial": ["Classical.choice", "Quot.sound", "propext"], "Verif.Props.c101_violated": ["propext"], "Verif.Props.c102_partial": ["Quot.sound", "propext"], "Verif.Props.c103_partial": ["Classical.choice", "Quot.sound", "propext"], "Verif.Props.c103_violated": ["Quot.sound", "propext"], "Verif.Props.c104_partial": ["Quot.sound", "propext"], "Verif.Props.c104_violated": ["Quot.sound", "propext"], "Verif.Props.c105_partial": ["Quot.sound", "propext"], "Verif.Props.c105_violated": ["Quot.sound", "propext"], "Verif.Props.c106_partial": ["Classical.choice", "Quot.sound", "propext"], "Verif.Props.c106_type2_partial": ["Classical.choice", "Quot.sound", "propext"], "Verif.Props.c106_violated": ["propext"], "Verif.Props.c106_violated_second": ["propext"], "Verif.Props.c107_partial": ["Quot.sound", "propext"], "Verif.Props.c107_reference_ignored": ["Quot.sound", "propext"], "Verif.Props.c107_violated": ["propext"], "Verif.Props.c108_hopping": ["Quot.sound", "propext"], "Verif.Props.c108_plain": ["Quot.sound", "propext"], "Verif.Props.c108_uplink": ["Quot.sound", "propext"], "Verif.Props.c109_partial": ["Classical.choice", "Quot.sound", "propext"], "Verif.Props.c109_violated": ["propext"], "Verif.Props.c10_oc_agree_partial": ["Classical.choice", "Quot.sound", "propext"], "Verif.Props.c10_oc_agree_violated": ["Classical.choice", "Quot.sound", "propext"], "Verif.Props.c110_freed_entity_violated": ["propext"], "Verif.Props.c110_new_tbf_violated": ["propext"], "Verif.Props.c110_no_abort_partial": ["Classical.choice", "Quot.sound", "propext"], "Verif.Props.c111_assigned_twice_violated": ["propext"], "Verif.Props.c111_polls_answered_partial": ["Classical.choice", "Quot.sound", "propext"], "Verif.Props.c112_freed_entity_violated": ["propext"], "Verif.Props.c112_in_turn_partial": ["Classical.choice", "Quot.sound", "propext"], "Verif.Props.c112_reservations_live_partial": ["Classical.choice", "Quot.sound", "propext"], "Verif.Props.c11_new_accepted": ["Quot.sound", "propext"], "Verif.Props.c11_no_duplicates_violated": ["Quot.sound", "propext"], "Verif.Props.c11_repeated_duplicates_partial": ["Classical.choice", "Quot.sound", "propext"], "Verif.Props.c12_oversize_or_once": ["Classical.choice", "Quot.sound", "propext"], "Verif.Props.c12_suspended": ["Classical.choice", "Quot.sound", "propext"], "Verif.Props.c13_attribution_partial": ["Classical.choice", "Quot.sound", "propext"], "Verif.Props.c13_change": ["Classical.choice", "Quot.sound", "propext"], "Verif.Props.c13_confirm": ["Classical.choice", "Quot.sound", "propext"], "Verif.Props.c13_unassign": ["Classical.choice", "Quot.sound", "propext"], "Verif.Props.c13_violated_collision": ["propext"], "Verif.Props.c13_violated_unassigned": ["propext"], "Verif.Props.c14_params_legal": ["Classical.choice", "Quot.sound", "propext"], "Verif.Props.c15_window_bounded": ["Classical.choice", "Quot.sound", "propext"], "Verif.Props.c16_leaves_only_acknowledged": ["Classical.choice", "Quot.sound", "propext"], "Verif.Props.c16_unacknowledged_repeated": ["Classical.choice", "Quot.sound", "propext"], "Verif.Props.c17_dl_window_deadlock_violated": ["Classical.choice", "Quot.sound", "propext"], "Verif.Props.c17_dl_window_exact_partial": ["Classical.choice", "Quot.sound", "propext"], "Verif.Props.c17_dl_window_exact_violated": ["Classical.choice", "Quot.sound", "propext"], "Verif.Props.c18_ack_bitmap_exact_partial": ["Classical.choice", "Quot.sound", "propext"], "Verif.Props.c18_ack_bitmap_exact_violated": ["Classical.choice", "Quot.sound", "propext"], "Verif.Props.c18_no_false_ack": ["Classical.choice", "Quot.sound", "propext"], "Verif.Props.c19_encoder_progress": ["Quot.sound", "propext"], "Verif.Props.c19_everything_is_sent": ["Classical.choice", "Quot.sound", "propext"], "Verif.Props.c19_segmentation_inverse_partial": ["Quot.sound", "propext"], "Verif.Props.c19_segmentation_inverse_violated": ["Quot.sound", "propext"], "Verif.Props.c20_parser_exact": ["Classical.choice", "Quot.sound", "propext"], "Verif.Props.c20_short_payload_overread": ["propext"], "Verif.Props.c21_all_delivered_partial": ["Classical.choice", "Quot.sound", "propext"], "Verif.Props.c21_all_delivered_violated": ["Classical.choice", "Quot.sound", "propext"], "Verif.Props.c21_delivered_in_order": ["Classical.choice", "Quot.sound", "propext"], "Verif.Props.c22_bitmap_applied": ["Classical.choice", "Quot.sound", "propext"], "Verif.Props.c23_countdown_value_partial": ["Classical.choice", "Quot.sound", "propext"], "Verif.Props.c23_countdown_value_violated": ["Quot.sound", "propext"], "Verif.Props.c23_counts_down_partial": ["Classical.choice", "Quot.sound", "propext"], "Verif.Props.c24_conserved": ["Classical.choice", "Quot.sound", "propext"], "Verif.Props.c24_fifo_partial": ["Classical.choice", "Quot.sound", "propext"], "Verif.Props.c24_fifo_violated": ["Quot.sound", "propext"], "Verif.Props.c24_priority": ["Classical.choice", "Quot.sound", "propext"], "Verif.Props.c25_dequeue_safe_partial": ["Classical.choice", "Quot.sound", "propext"], "Verif.Props.c25_dequeue_safe_violated": ["Quot.sound", "propext"], "Verif.Props.c25_only_codel_drops_fail": ["Classical.choice", "Quot.sound", "propext"], "Verif.Props.c26_drop_only_after_interval": ["Classical.choice", "Quot.sound", "propext"], "Verif.Props.c26_factor": ["Quot.sound", "propext"], "Verif.Props.c26_parameters": ["Classical.choice", "Quot.sound", "propext"], "Verif.Props.c26_spacing": ["Classical.choice", "Quot.sound", "propext"], "Verif.Props.c27_early_ack_violated": ["propext"], "Verif.Props.c27_n3104_violated": ["propext"], "Verif.Props.c27_starting_time_violated": ["propext"], "Verif.Props.c27_unexpected_ignored": ["propext"], "Verif.Props.c27_uplink_tbf_survives_partial": ["Classical.choice", "Quot.sound", "propext"], "Verif.Props.c27_violated": ["propext"], "Verif.Props.c27_wraparound_violated": ["Quot.sound", "propext"], "Verif.Props.c28_access_attempts_partial": ["Classical.choice", "Quot.sound", "propext"], "Verif.Props.c28_unbounded_violated": ["propext"], "Verif.Props.c28_violated": ["Quot.sound", "propext"], "Verif.Props.c29_not_stuck_partial": ["Classical.choice", "Quot.sound", "propext"], "Verif.Props.c29_single_block_violated": ["Quot.sound", "propext"], "Verif.Props.c29_stuck_violated": ["propext"], "Verif.Props.c29_violated": ["Quot.sound", "propext"], "Verif.Props.c30_assignment_partial": ["Classical.choice", "Quot.sound", "propext"], "Verif.Props.c30_imm_ass_grants": ["Quot.sound", "propext"], "Verif.Props.c30_imm_ass_waits": ["propext"], "Verif.Props.c30_no_timeslot_violated": ["propext"], "Verif.Props.c30_pkt_ul_ass_grants": ["Quot.sound", "propext"], "Verif.Props.c30_poll_delays_start": ["Classical.choice", "Quot.sound", "propext"], "Verif.Props.c30_unsupported_violated": ["propext"], "Verif.Props.c30_violated": ["propext"], "Verif.Props.c31_rts_good_partial": ["Classical.choice", "Quot.sound", "propext"], "Verif.Props.c31_shared_usf_violated": ["propext"], "Verif.Props.c32_owner_partial": ["Quot.sound", "propext"], "Verif.Props.c32_owner_violated": ["propext"], "Verif.Props.c32_polls": ["Classical.choice", "Quot.sound", "propext"], "Verif.Props.c32_total": ["propext"], "Verif.Props.c33_poll_block": ["Quot.sound", "propext"], "Verif.Props.c33_poll_fn": ["Quot.sound", "propext"], "Verif.Props.c34_starting_block": ["Quot.sound", "propext"], "Verif.Props.c35_size_dl_partial": ["Quot.sound", "propext"], "Verif.Props.c35_size_dl_violated": ["Quot.sound", "propext"], "Verif.Props.c35_size_ul": ["Quot.sound", "propext"], "Verif.Props.c36_retx_compatible": ["Quot.sound", "propext"], "Verif.Props.c36_retx_mcs": ["Quot.sound", "propext"], "Verif.Props.c37_octet_count_partial": ["Quot.sound", "propext"], "Verif.Props.c37_octet_count_violated": ["Quot.sound", "propext"], "Verif.Props.c38_assign_partial": ["Quot.sound", "propext"], "Verif.Props.c38_found_partial": ["Quot.sound", "propext"], "Verif.Props.c38_violated": ["propext"], "Verif.Props.c38_violated_unassigned": [], "Verif.Props.c39_imm_ass": ["Classical.choice", "Quot.sound", "propext"], "Verif.Props.c40_any_count_partial": ["Classical.choice", "Quot.sound", "propext"], "Verif.Props.c40_first_flag_wraps": ["Classical.choice", "Quot.sound", "propext"], "Verif.Props.c40_refusal": ["Quot.sound", "propext"], "Verif.Props.c40_segments_partial": ["Classical.choice", "Quot.sound", "propext"], "Verif.Props.c40_standard_partial": ["Classical.choice", "Quot.sound", "propext"], "Verif.Props.c40_statement_violated": ["propext"], "Verif.Props.c41_in_order_partial": ["Classical.choice", "Quot.sound", "propext"], "Verif.Props.c41_standard_sizes": ["Classical.choice", "Quot.sound", "propext"], "Verif.Props.c41_statement_violated": ["propext"], "Verif.Props.c42_any_order_partial": ["Classical.choice", "Quot.sound", "propext"], "Verif.Props.c42_statement_violated": ["propext"], "Verif.Props.c42_stream_partial": ["Classical.choice", "Quot.sound", "propext"], "Verif.Props.c43_one_npdu_partial": ["Classical.choice", "Quot.sound", "propext"], "Verif.Props.c43_provenance": ["Classical.choice", "Quot.sound", "propext"], "Verif.Props.c43_statement_violated": ["Quot.sound", "propext"], "Verif.Props.c44_duplicates_partial": ["Classical.choice", "Quot.sound", "propext"], "Verif.Props.c44_single_twice": ["Classical.choice", "Quot.sound", "propext"], "Verif.Props.c44_statement_violated": ["Quot.sound", "propext"], "Verif.Props.c45_more_short_violated": ["propext"], "Verif.Props.c45_overrun_violated": ["propext"], "Verif.Props.c45_receive_safe_partial": ["Quot.sound", "propext"], "Verif.Props.c45_statement_violated": ["Quot.sound", "propext"], "Verif.Props.c46_coding": ["Classical.choice", "Quot.sound", "propext"], "Verif.Props.c46_decoding": ["Classical.choice", "Quot.sound", "propext"], "Verif.Props.c46_rohc_violated": ["Classical.choice", "Quot.sound", "propext"], "Verif.Props.c46_roundtrip_partial": ["Classical.choice", "Quot.sound", "propext"], "Verif.Props.c46_statement_violated": ["Classical.choice", "Quot.sound", "propext"], "Verif.Props.c46_v44_violated": ["propext"], "Verif.Props.c47_answer_partial": ["Classical.choice", "Quot.sound", "propext"], "Verif.Props.c47_crafted_violated": ["propext"], "Verif.Props.c47_long_answer_violated": ["Classical.choice", "Quot.sound", "propext"], "Verif.Props.c47_statement_violated": ["Quot.sound", "propext"], "Verif.Props.c48_no_abort": ["Quot.sound", "propext"], "Verif.Props.c48_proposals_partial": ["Classical.choice", "Quot.sound", "propext"], "Verif.Props.c48_statement_violated": ["propext"], "Verif.Props.c48_well_kept": ["Quot.sound", "propext"], "Verif.Props.c49_entities": ["Classical.choice", "Quot.sound", "propext"], "Verif.Props.c50_partial": ["Quot.sound", "propext"], "Verif.Props.c50_violated": ["propext"], "Verif.Props.c50_violated_cause0": ["propext"], "Verif.Props.c51_bounded": ["Quot.sound", "propext"], "Verif.Props.c51_ends": ["Quot.sound", "propext"], "Verif.Props.c51_expiry": ["Quot.sound", "propext"], "Verif.Props.c52_terminate": ["Classical.choice", "Quot.sound", "propext"], "Verif.Props.c53_accept_partial": ["Quot.sound", "propext"], "Verif.Props.c53_answered_partial": ["Quot.sound", "propext"], "Verif.Props.c53_violated": ["Quot.sound", "propext"], "Verif.Props.c53_violated_reject": ["Quot.sound", "propext"], "Verif.Props.c54_right_partial": ["Quot.sound", "propext"], "Verif.Props.c54_sent_partial": ["Classical.choice", "Quot.sound", "propext"], "Verif.Props.c54_stored": ["Quot.sound", "propext"], "Verif.Props.c54_violated": ["Quot.sound", "propext"], "Verif.Props.c55_encoder_partial": ["Classical.choice", "Quot.sound", "propext"], "Verif.Props.c55_encoder_violated": ["Classical.choice", "Quot.sound", "propext"], "Verif.Props.c56_decoder_partial": ["Classical.choice", "Quot.sound", "propext"], "Verif.Props.c56_profile_partial": ["Classical.choice", "Quot.sound", "propext"], "Verif.Props.c56_profile_violated": ["propext"], "Verif.Props.c57_inorder_delivery": ["Classical.choice", "Quot.sound", "propext"], "Verif.Props.c58_command_partial": [], "Verif.Props.c58_response_violated": [], "Verif.Props.c58_violated": [], "Verif.Props.c58_xid_exchange_never_ends": ["propext"], "Verif.Props.c59_violated": ["propext"], "Verif.Props.c59_xid_req_delivered_partial": ["Classical.choice", "Quot.sound", "propext"], "Verif.Props.c60_never_faults_partial": ["Classical.choice", "Quot.sound", "propext"], "Verif.Props.c60_violated": ["propext"], "Verif.Props.c61_dl_data_never_aborts_violated": ["propext"], "Verif.Props.c62_empty_pdu_violated": ["Quot.sound", "propext"], "Verif.Props.c63_codel_stays_partial": ["Quot.sound", "propext"], "Verif.Props.c63_codel_stays_violated": ["Quot.sound", "propext"], "Verif.Props.c64_starting_time_range_violated": [], "Verif.Props.c64_starting_time_rfn_partial": ["Quot.sound", "propext"], "Verif.Props.c65_chan_code": ["Classical.choice", "Quot.sound", "propext"], "Verif.Props.c65_inc_dec": ["Classical.choice", "Quot.sound", "propext"], "Verif.Props.c65_inc_dec_range": ["Classical.choice", "Quot.sound", "propext"], "Verif.Props.c66_next_block": ["Quot.sound", "propext"], "Verif.Props.c67_n3104": ["Classical.choice", "Quot.sound", "propext"], "Verif.Props.c68_numbers_distinct": ["Quot.sound", "propext"], "Verif.Props.c68_numbers_partial": ["Classical.choice", "Quot.sound", "propext"], "Verif.Props.c68_statement_violated": ["propext"], "Verif.Props.c69_statement_violated": ["propext"], "Verif.Props.c69_violated": ["propext"], "Verif.Props.c69_works_partial": ["Classical.choice", "Quot.sound", "propext"], "Verif.Props.c70_exchange_partial": ["Classical.choice", "Quot.sound", "propext"], "Verif.Props.c70_first_partial": ["Classical.choice", "Quot.sound", "propext"], "Verif.Props.c70_flag_violated": ["propext"], "Verif.Props.c70_second_violated": ["propext"], "Verif.Props.c70_statement_violated": ["Classical.choice", "Quot.sound", "propext"], "Verif.Props.c71_confirmation_partial": ["Classical.choice", "Quot.sound", "propext"], "Verif.Props.c71_confirmation_violated": ["Quot.sound", "propext"], "Verif.Props.c72_sapi_partial": ["Classical.choice", "Quot.sound", "propext"], "Verif.Props.c72_sapi_violated": ["Quot.sound", "propext"], "Verif.Props.c73_absent": ["propext"], "Verif.Props.c73_decoder_partial": ["Classical.choice", "Quot.sound", "propext"], "Verif.Props.c73_decoder_violated": [], "Verif.Props.c74_delay_partial": ["Classical.choice", "Quot.sound", "propext"], "Verif.Props.c74_delay_violated": ["Quot.sound", "propext"], "Verif.Props.c75_order_partial": ["Classical.choice", "Quot.sound", "propext"], "Verif.Props.c75_order_violated": ["propext"], "Verif.Props.c76_decode_partial": ["Classical.choice", "Quot.sound", "propext"], "Verif.Props.c76_encode_partial": ["Quot.sound", "propext"], "Verif.Props.c76_violated": ["propext"], "Verif.Props.c77_partial": ["Classical.choice", "Quot.sound", "propext"], "Verif.Props.c77_violated": ["propext"], "Verif.Props.c77_violated_ipv6": ["propext"], "Verif.Props.c78_apn": ["Quot.sound", "propext"], "Verif.Props.c78_context": ["propext"], "Verif.Props.c78_request": ["Quot.sound", "propext"], "Verif.Props.c79_partial": ["Quot.sound", "propext"], "Verif.Props.c79_step": ["Quot.sound", "propext"], "Verif.Props.c79_violated": ["propext"], "Verif.Props.c80_partial": ["Quot.sound", "propext"], "Verif.Props.c80_violated": ["propext"], "Verif.Props.c81_partial": ["Quot.sound", "propext"], "Verif.Props.c81_violated": ["Quot.sound", "propext"], "Verif.Props.c81_violated_ti": ["propext"], "Verif.Props.c82_status": ["Classical.choice", "Quot.sound", "propext"], "Verif.Props.c83_partial": ["Quot.sound", "propext"], "Verif.Props.c83_violated": ["propext"], "Verif.Props.c84_partial": ["Classical.choice", "Quot.sound", "propext"], "Verif.Props.c84_violated": ["Quot.sound", "propext"], "Verif.Props.c85_decode": ["propext"], "Verif.Props.c85_exact": ["Quot.sound", "propext"], "Verif.Props.c85_floor": ["Quot.sound", "propext"], "Verif.Props.c85_monotone": ["Quot.sound", "propext"], "Verif.Props.c86_fourth_partial": ["Classical.choice", "Quot.sound", "propext"], "Verif.Props.c86_violated": ["Quot.sound", "propext"], "Verif.Props.c86_violated_rau": ["Classical.choice", "Quot.sound", "propext"], "Verif.Props.c87_answered_partial": ["Quot.sound", "propext"], "Verif.Props.c87_solicited_partial": ["Quot.sound", "propext"], "Verif.Props.c87_violated": ["Quot.sound", "propext"], "Verif.Props.c87_violated_detach": ["Quot.sound", "propext"], "Verif.Props.c87_violated_refused": ["Quot.sound", "propext"], "Verif.Props.c88_truthful_partial": ["Quot.sound", "propext"], "Verif.Props.c88_violated": ["Quot.sound", "propext"], "Verif.Props.c89_attach_partial": ["Quot.sound", "propext"], "Verif.Props.c89_detach_violated": ["propext"], "Verif.Props.c89_rau_partial": ["propext"], "Verif.Props.c89_violated": ["propext"], "Verif.Props.c90_violated": ["propext"], "Verif.Props.c90_violated_always": ["Quot.sound", "propext"], "Verif.Props.c91_digits": ["Quot.sound", "propext"], "Verif.Props.c91_identity": ["Quot.sound", "propext"], "Verif.Props.c92_cycle_partial": ["Quot.sound", "propext"], "Verif.Props.c92_timers_partial": ["Quot.sound", "propext"], "Verif.Props.c92_violated": ["Quot.sound", "propext"], "Verif.Props.c92_violated_detached": ["Quot.sound", "propext"], "Verif.Props.c93_accept_partial": ["Quot.sound", "propext"], "Verif.Props.c93_violated": ["Quot.sound", "propext"], "Verif.Props.c93_violated_lost": ["Quot.sound", "propext"], "Verif.Props.c93_violated_unasked": ["Quot.sound", "propext"], "Verif.Props.c94_poweroff_partial": ["Quot.sound", "propext"], "Verif.Props.c94_stuck": ["Quot.sound", "propext"], "Verif.Props.c94_violated": ["Quot.sound", "propext"], "Verif.Props.c95_null_partial": ["Quot.sound", "propext"], "Verif.Props.c95_violated": ["Quot.sound", "propext"], "Verif.Props.c95_violated_poweroff": ["Quot.sound", "propext"], "Verif.Props.c96_new_ptmsi_partial": ["Quot.sound", "propext"], "Verif.Props.c96_violated": ["Quot.sound", "propext"], "Verif.Props.c96_violated_always": ["Classical.choice", "Quot.sound", "propext"], "Verif.Props.c97_violated": ["Quot.sound", "propext"], "Verif.Props.c97_violated_again": ["Quot.sound", "propext"], "Verif.Props.c97_violated_always": ["Quot.sound", "propext"], "Verif.Props.c98_current_partial": ["Quot.sound", "propext"], "Verif.Props.c98_tlli_partial": ["Quot.sound", "propext"], "Verif.Props.c98_violated": ["Quot.sound", "propext"], "Verif.Props.c98_violated_ptmsi": [], "Verif.Props.c99_downlink": ["Classical.choice", "Quot.sound", "propext"], "Verif.Props.c99_immAss": ["Classical.choice", "Quot.sound", "propext"], "Verif.Props.c99_p1": ["Classical.choice", "Quot.sound", "propext"], "Verif.Props.c99_p2": ["Classical.choice", "Quot.sound", "propext"], "Verif.Props.c99_raCap": ["Classical.choice", "Quot.sound", "propext"], "Verif.Props.c99_si13": ["Classical.choice", "Quot.sound", "propext"], "Verif.Props.c99_uplink": ["Classical.choice", "Quot.sound", "propext"]}