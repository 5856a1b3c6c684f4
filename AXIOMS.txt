'LiCan.C01_ids_distinct' depends on axioms: [propext, Classical.choice, Quot.sound]
'LiCan.C01_id_layout' depends on axioms: [propext, Quot.sound]
'LiCan.C01_counterexample_above_128' does not depend on any axioms
'LiCan.C02_decode' depends on axioms: [propext, Classical.choice, Quot.sound]
'LiCan.C03_filter_exact' depends on axioms: [propext, Classical.choice, Quot.sound]
'LiCan.C03_filter_complete' depends on axioms: [propext, Classical.choice, Quot.sound]
'LiCan.C04_numbers_distinct' depends on axioms: [propext, Classical.choice, Quot.sound]
'LiCan.C04_number_range' depends on axioms: [propext, Classical.choice, Quot.sound]
'LiCan.C04_new_number' depends on axioms: [propext, Classical.choice, Quot.sound]
'LiCan.C05_full' depends on axioms: [propext, Quot.sound]
'LiCan.C05_first_free_row' depends on axioms: [propext, Classical.choice, Quot.sound]
'LiCan.C05_capacity' depends on axioms: [propext, Classical.choice, Quot.sound]
'LiCan.C07_assigned_once' depends on axioms: [propext, Classical.choice, Quot.sound]
'LiCan.C07_never_reprogrammed' depends on axioms: [propext, Classical.choice, Quot.sound]
'LiCan.C07_rx_objects_distinct' depends on axioms: [propext, Classical.choice, Quot.sound]
'LiCan.C08_attributed_to_owner' depends on axioms: [propext, Classical.choice, Quot.sound]
'LiCan.C08_configured_is_attributed' depends on axioms: [propext, Classical.choice, Quot.sound]
'LiCan.C08_wrong_slot' depends on axioms: [propext, Classical.choice, Quot.sound]
'LiCan.C08_identifier' depends on axioms: [propext, Classical.choice, Quot.sound]
'LiCan.C09_process_data' depends on axioms: [propext, Classical.choice, Quot.sound]
'LiCan.C09_process_data_complete' depends on axioms: [propext, Classical.choice, Quot.sound]
'LiCan.C09_only_active' depends on axioms: [propext, Classical.choice, Quot.sound]
'LiCan.C10_exact' depends on axioms: [propext, Classical.choice, Quot.sound]
'LiCan.C10_terminates_partial' depends on axioms: [propext, Classical.choice, Quot.sound]
'LiCan.C10_counterexample' depends on axioms: [propext, Quot.sound]
'LiCan.C11_silent_partial' depends on axioms: [propext, Classical.choice, Quot.sound]
'LiCan.C11_counterexample_active' depends on axioms: [propext, Quot.sound]
'LiCan.C11_counterexample_registration' depends on axioms: [propext, Quot.sound]
'LiCan.C11_counterexample_number_change' depends on axioms: [propext, Quot.sound]
'LiCan.C12_silent_no_system_answer' depends on axioms: [propext, Classical.choice, Quot.sound]
'LiCan.C12_registered' depends on axioms: [propext, Classical.choice, Quot.sound]
'LiCan.C13_critical_stays_out' depends on axioms: [propext, Classical.choice, Quot.sound]
'LiCan.C13_counterexample_no_way_back' depends on axioms: [propext, Quot.sound]
'LiCan.Slave.C15_matching_frame' depends on axioms: [propext, Classical.choice, Quot.sound]
'LiCan.Slave.C15_other_frames' depends on axioms: [propext, Classical.choice, Quot.sound]
'LiCan.Slave.C15_error_code' depends on axioms: [propext]
'LiCan.CopySt.C16_snapshot' depends on axioms: [propext, Classical.choice, Quot.sound]
'LiCan.CopySt.C16_terminates' depends on axioms: [propext, Quot.sound]
'LiCan.CopySt.C16_enables_interrupts' depends on axioms: [propext, Quot.sound]
'LiCan.Slave.C17_cycle_bounded' depends on axioms: [propext, Classical.choice, Quot.sound]
'LiCan.Slave.C17_set_cycle' depends on axioms: [propext, Quot.sound]
'LiCan.Slave.C17_reported_period' depends on axioms: [propext, Quot.sound]
'LiCan.Slave.C17_period_is_distance' depends on axioms: [propext, Classical.choice, Quot.sound]
'LiCan.Slave.C18_first_request' depends on axioms: [propext, Classical.choice, Quot.sound]
'LiCan.Slave.C18_late_registration_lost' depends on axioms: [propext, Classical.choice, Quot.sound]
'LiCan.Slave.C18_first_status_once' depends on axioms: [propext, Classical.choice, Quot.sound]
'LiCan.Slave.C18_first_status_called' depends on axioms: [propext, Classical.choice, Quot.sound]
'LiCan.C19_error_queue_fifo' depends on axioms: [propext, Classical.choice, Quot.sound]
'LiCan.C19_error_queue_fifo_strong' depends on axioms: [propext, Classical.choice, Quot.sound]
'LiCan.C20_error_queue_oob_iff' depends on axioms: [propext, Classical.choice, Quot.sound]
'LiCan.C20_error_queue_in_bounds_partial' depends on axioms: [propext, Classical.choice, Quot.sound]
'LiCan.C20_error_queue_oob_counterexample' depends on axioms: [propext, Quot.sound]
'LiCan.C21_error_count_bounded' depends on axioms: [propext, Quot.sound]
'LiCan.C21_error_report_refused' depends on axioms: [propext, Quot.sound]
'LiCan.C21_error_report_fills' depends on axioms: [propext, Classical.choice, Quot.sound]
'LiCan.C22_error_number_expand' depends on axioms: [propext, Quot.sound]
'LiCan.C22_error_number_round_trip' depends on axioms: [propext, Classical.choice, Quot.sound]
'LiCan.C22_error_number_injective' depends on axioms: [propext, Classical.choice, Quot.sound]
'LiCan.Slave.C23_refused' depends on axioms: [propext, Quot.sound]
'LiCan.Slave.C23_refused_frame' depends on axioms: [propext, Classical.choice, Quot.sound]
'LiCan.Slave.C24_serial_required' depends on axioms: [propext, Classical.choice, Quot.sound]
'LiCan.Slave.C24_large_serial' depends on axioms: [propext, Classical.choice, Quot.sound]
'LiCan.Slave.C24_silent_awake' depends on axioms: [propext, Classical.choice, Quot.sound]
'LiCan.Slave.C25_status_broadcast' depends on axioms: [propext, Classical.choice, Quot.sound]
'LiCan.Slave.C25_status_direct' depends on axioms: [propext, Classical.choice, Quot.sound]
'LiCan.Slave.C26_version_round_trip' depends on axioms: [propext, Quot.sound]
'LiCan.Slave.C26_version_frames' depends on axioms: [propext, Classical.choice, Quot.sound]
'LiCan.Slave.C26_error_round_trip' depends on axioms: [propext, Quot.sound]
'LiCan.Slave.C26_system_time' depends on axioms: [propext, Quot.sound]
'LiCan.Slave.C27_errors_reported_partial' depends on axioms: [propext, Classical.choice, Quot.sound]
'LiCan.Slave.C27_pending_is_fifo' depends on axioms: [propext, Classical.choice, Quot.sound]
'LiCan.Slave.C27_counterexample' depends on axioms: [propext, Quot.sound]
'LiCan.C28_refused' depends on axioms: [propext, Quot.sound]
'LiCan.C28_accepted' depends on axioms: [propext, Classical.choice, Quot.sound]
'LiCan.C28_no_voter' depends on axioms: [propext, Quot.sound]
'LiCan.C29_only_that_row_partial' depends on axioms: [propext, Quot.sound]
'LiCan.C29_renumbered' depends on axioms: [propext, Classical.choice, Quot.sound]
'LiCan.C29_counterexample' depends on axioms: [propext, Quot.sound]
'LiCan.Slave.C30_counterexample' depends on axioms: [propext, Quot.sound]
'LiCan.Slave.C30_rates_partial' depends on axioms: [propext, Quot.sound]
'LiCan.Slave.C30_reported_rate_counterexample' depends on axioms: [propext]
'LiCan.Slave.C30_rates_history' depends on axioms: [propext, Classical.choice, Quot.sound]
'LiCan.Slave.C31_mode_restored' depends on axioms: [propext, Quot.sound]
'LiCan.Slave.C31_stop_refused' depends on axioms: [propext, Quot.sound]
'LiCan.Stack.C32_fifo' depends on axioms: [propext, Classical.choice, Quot.sound]
'LiCan.Stack.C32_refused' depends on axioms: [propext, Classical.choice, Quot.sound]
'LiCan.Stack.C32_accepted' depends on axioms: [propext, Classical.choice, Quot.sound]
'LiCan.Stack.C33_already_used' depends on axioms: [propext, Quot.sound]
'LiCan.Stack.C33_kept' depends on axioms: [propext, Classical.choice, Quot.sound]
'LiCan.Stack.C33_history' depends on axioms: [propext, Classical.choice, Quot.sound]
'LiCan.Stack.C34_exact' depends on axioms: [propext, Quot.sound]
'LiCan.Stack.C34_partial' depends on axioms: [propext, Quot.sound]
'LiCan.Stack.C34_counterexample' depends on axioms: [propext, Quot.sound]
'LiCan.Stack.C35_stream' depends on axioms: [propext, Classical.choice, Quot.sound]
'LiCan.Stack.C35_putc' depends on axioms: [propext, Classical.choice, Quot.sound]
'LiCan.Stack.C37_ignored' depends on axioms: [propext, Quot.sound]
'LiCan.C38_buffer_is_fifo' depends on axioms: [propext, Classical.choice, Quot.sound]
'LiCan.C38_buffer_in_bounds' depends on axioms: [propext, Classical.choice, Quot.sound]
'LiCan.C39_store_read_restore' depends on axioms: [propext, Classical.choice, Quot.sound]
'LiCan.C39_add_between_counterexample' does not depend on any axioms
'LiCan.C40_hex_fields' depends on axioms: [propext, Classical.choice, Quot.sound]
'LiCan.Stack.C41_version_name' depends on axioms: [propext, Quot.sound]
'LiCan.Stack.C41_info_name' depends on axioms: [propext, Quot.sound]
'LiCan.Stack.C43_exact' depends on axioms: [propext, Quot.sound]
'LiCan.Stack.C43_goes_on' depends on axioms: [propext, Classical.choice, Quot.sound]
'LiCan.Stack.C43_refused_partial' depends on axioms: [propext, Quot.sound]
'LiCan.Stack.C43_counterexample' depends on axioms: [propext, Quot.sound]
'LiCan.Stack.C45_termination' depends on axioms: [propext, Quot.sound]
'LiCan.Stack.C45_failed_request' depends on axioms: [propext, Quot.sound]
'LiCan.Stack.C46_consistent' depends on axioms: [propext, Classical.choice, Quot.sound]
'LiCan.Stack.C46_corrupted_partial' depends on axioms: [propext]
'LiCan.Stack.C46_counterexample' depends on axioms: [propext]
'LiCan.Stack.C47_first_registration' depends on axioms: [propext, Classical.choice, Quot.sound]
'LiCan.Stack.C47_refused' depends on axioms: [propext, Classical.choice, Quot.sound]
'LiCan.Stack.C48_listens' depends on axioms: [propext, Classical.choice, Quot.sound]
'LiCan.Stack.C49_cyclic' depends on axioms: [propext, Classical.choice, Quot.sound]
'LiCan.Stack.C49_all' depends on axioms: [propext, Classical.choice, Quot.sound]
'LiCan.Stack.C49_progress' depends on axioms: [propext, Classical.choice, Quot.sound]
'LiCan.Slave.C51_delay_bounded' depends on axioms: [propext, Quot.sound]
'LiCan.C55_exact' depends on axioms: [propext, Quot.sound]
'LiCan.C55_init_clean_partial' depends on axioms: [propext, Classical.choice, Quot.sound]
'LiCan.C55_counterexample' depends on axioms: [propext, Quot.sound]
'LiCan.Slave.C56_exact' depends on axioms: [propext, Classical.choice, Quot.sound]
'LiCan.Slave.C56_seen_iff' depends on axioms: [propext, Classical.choice, Quot.sound]
'LiCan.Slave.C56_bus_loss_partial' depends on axioms: [propext, Classical.choice, Quot.sound]
'LiCan.Slave.C56_no_false_alarm' depends on axioms: [propext, Classical.choice, Quot.sound]
'LiCan.Slave.C56_counterexample_microseconds' depends on axioms: [propext, Quot.sound]
'LiCan.Stack.C57_download' depends on axioms: [propext, Classical.choice, Quot.sound]
'LiCan.Stack.C59_stuck' depends on axioms: [propext, Classical.choice, Quot.sound]
'LiCan.Stack.C59_partial' depends on axioms: [propext, Classical.choice, Quot.sound]
'LiCan.Stack.C59_counterexample' depends on axioms: [propext, Classical.choice, Quot.sound]
'LiCan.Stack.C60_close' depends on axioms: [propext, Quot.sound]
'LiCan.Stack.C60_reset' depends on axioms: [propext, Quot.sound]
'LiCan.Stack.C60_partial' depends on axioms: [propext, Quot.sound]
'LiCan.Stack.C60_counterexample' depends on axioms: [propext, Quot.sound]
'LiCan.Stack.C61_partial' depends on axioms: [propext, Quot.sound]
'LiCan.Stack.C61_counterexample' depends on axioms: [propext, Quot.sound]
'LiCan.Stack.C62_exact' depends on axioms: [propext, Classical.choice, Quot.sound]
'LiCan.Stack.C62_rest_iff' depends on axioms: [propext, Classical.choice, Quot.sound]
'LiCan.Stack.C62_partial' depends on axioms: [propext, Classical.choice, Quot.sound]
'LiCan.Stack.C62_counterexample' depends on axioms: [propext, Quot.sound]
'LiCan.Stack.C63_exact' depends on axioms: [propext, Quot.sound]
'LiCan.Stack.C63_listening' depends on axioms: [propext, Quot.sound]
'LiCan.Stack.C63_partial' depends on axioms: [propext, Quot.sound]
'LiCan.Stack.C63_queue_partial' depends on axioms: [propext, Quot.sound]
'LiCan.Stack.C63_counterexample' depends on axioms: [propext, Quot.sound]
'LiCan.Stack.C64_partial' depends on axioms: [propext, Classical.choice, Quot.sound]
'LiCan.Stack.C64_counterexample' depends on axioms: [propext, Quot.sound]
'LiCan.Stack.C65_partial' depends on axioms: [propext, Classical.choice, Quot.sound]
'LiCan.Stack.C65_counterexample' depends on axioms: [propext, Quot.sound]
'LiCan.Stack.C65_lasts' depends on axioms: [propext, Classical.choice, Quot.sound]
'LiCan.Stack.C65_never' depends on axioms: [propext, Classical.choice, Quot.sound]
'LiCan.Stack.C66_version' depends on axioms: [propext, Quot.sound]
'LiCan.Stack.C66_version_long' depends on axioms: [propext, Quot.sound]
'LiCan.Stack.C66_info' depends on axioms: [propext, Quot.sound]
'LiCan.Stack.C67_announced' depends on axioms: [propext, Classical.choice, Quot.sound]
'LiCan.Stack.C68_partial' depends on axioms: [propext, Classical.choice, Quot.sound]
'LiCan.Stack.C68_counterexample' depends on axioms: [propext, Quot.sound]
'LiCan.Stack.C69_download_start' depends on axioms: [propext, Classical.choice, Quot.sound]
'LiCan.Stack.C69_upload_start' depends on axioms: [propext, Quot.sound]
'LiCan.Stack.C69_app_start' depends on axioms: [propext, Quot.sound]
'LiCan.Stack.C70_download_end' depends on axioms: [propext, Quot.sound]
'LiCan.Stack.C70_upload_end' depends on axioms: [propext, Quot.sound]
'LiCan.Stack.C70_upload_block' depends on axioms: [propext, Quot.sound]
'LiCan.Stack.C71_close' depends on axioms: [propext, Quot.sound]
'LiCan.Stack.C71_shutdown' depends on axioms: [propext, Quot.sound]
'LiCan.Stack.C72_restart' depends on axioms: [propext, Quot.sound]
'LiCan.Stack.C72_start' depends on axioms: [propext, Quot.sound]
'LiCan.Stack.C73_frame_ends' depends on axioms: [propext, Classical.choice, Quot.sound]
'LiCan.Stack.C74_unbound' depends on axioms: [propext, Quot.sound]
'LiCan.Stack.C74_partial' depends on axioms: [propext, Quot.sound]
'LiCan.Stack.C74_counterexample' depends on axioms: [propext, Quot.sound]
'LiCan.Mon.C75_main_first_partial' depends on axioms: [propext, Classical.choice, Quot.sound]
'LiCan.Mon.C75_monitor_first_partial' depends on axioms: [propext, Classical.choice, Quot.sound]
'LiCan.Mon.C75_counterexample_long_request' depends on axioms: [propext, Quot.sound]
'LiCan.Mon.C75_counterexample_late_monitor' depends on axioms: [propext, Quot.sound]
'LiCan.Mon.C75_counterexample_switched' depends on axioms: [propext, Quot.sound]
'LiCan.Mon.C76_monitor_covers_modules_partial' depends on axioms: [propext, Classical.choice, Quot.sound]
'LiCan.Mon.C76_counterexample_unwatched' depends on axioms: [propext, Quot.sound]
'LiCan.Mon.C77_no_verdict_without_monitor' depends on axioms: [propext, Classical.choice, Quot.sound]
'LiCan.Mon.C77_no_verdict_without_main' depends on axioms: [propext, Classical.choice, Quot.sound]
'LiCan.Mon.C77_counterexample_stale' depends on axioms: [propext, Quot.sound]
'LiCan.Mon.C78_same_rate' depends on axioms: [propext, Classical.choice, Quot.sound]
'LiCan.Mon.C79_modes_agree_partial' depends on axioms: [propext]
'LiCan.Mon.C79_counterexample_stopped' depends on axioms: [propext, Quot.sound]
'LiCan.Mon.C79_counterexample_refused' depends on axioms: [propext, Quot.sound]
'LiCan.Mon.C79_counterexample_baud' depends on axioms: [propext, Quot.sound]
'LiCan.Mon.C80_monitor_does_not_interfere' depends on axioms: [propext, Quot.sound]
'LiCan.Mon.C81_no_verdict_on_doubled_or_long_request' depends on axioms: [propext, Classical.choice, Quot.sound]
'LiCan.Slave.C82_time_function' depends on axioms: [propext, Classical.choice, Quot.sound]
'LiCan.Slave.C82_time_unchanged' depends on axioms: [propext, Classical.choice, Quot.sound]
'LiCan.Slave.C82_last_valid_time' depends on axioms: [propext, Classical.choice, Quot.sound]
'LiCan.Slave.C82_counterexample_same_type' depends on axioms: [propext, Quot.sound]
'LiCan.CpFifo.C83_fifo_is_a_bounded_queue' depends on axioms: [propext, Classical.choice, Quot.sound]
'LiCan.CpFifo.C83_index_in_range' depends on axioms: [propext, Classical.choice, Quot.sound]
'LiCan.CpDrv.C84_message' depends on axioms: [propext, Quot.sound]
'LiCan.CpDrv.C84_long_frame_is_undefined' depends on axioms: [propext, Quot.sound]
'LiCan.CpDrv.C84_identifier' depends on axioms: [propext, Quot.sound]
'LiCan.CpDrv.C84_identifier_is_truncated' depends on axioms: [propext, Quot.sound]
'LiCan.CpDrv.C84_transmit_path' depends on axioms: [propext, Classical.choice, Quot.sound]
'LiCan.CpDrv.C84_returned' depends on axioms: [propext, Classical.choice, Quot.sound]
'LiCan.CpDrv.C84_order' depends on axioms: [propext, Classical.choice, Quot.sound]
'LiCan.CpDrv.C84_counterexample_overtaking' depends on axioms: [propext, Quot.sound]
'LiCan.Stack.C85_all_frames_are_legal_partial' depends on axioms: [propext, Classical.choice, Quot.sound]
'LiCan.Stack.C85_frames_reach_the_bus_partial' depends on axioms: [propext, Classical.choice, Quot.sound]
'LiCan.Stack.C85_counterexample_number_zero' depends on axioms: [propext, Quot.sound]
'LiCan.Stack.C85_counterexample_long_template' depends on axioms: [propext, Quot.sound]
'LiCan.Slave.C86_same_delays_iff' depends on axioms: [propext, Classical.choice, Quot.sound]
'LiCan.Slave.C86_counterexample_serials' depends on axioms: [propext, Classical.choice, Quot.sound]
'LiCan.Slave.C86_closed_form' depends on axioms: [propext, Quot.sound]
'LiCan.Slave.C86_thirteen_values' depends on axioms: [propext, Quot.sound]
'LiCan.Slave.C86_fourteen_nodes_collide' depends on axioms: [propext, Classical.choice, Quot.sound]
'LiCan.AppConv.C87_uint16' depends on axioms: [propext, Quot.sound]
'LiCan.AppConv.C87_uint16_round_trip' depends on axioms: [propext, Quot.sound]
'LiCan.AppConv.C87_uint32' depends on axioms: [propext, Quot.sound]
'LiCan.AppConv.C87_uint32_round_trip' depends on axioms: [propext, Quot.sound]
'LiCan.AppConv.C87_bits' depends on axioms: [propext, Classical.choice, Quot.sound]
'LiCan.AppConv.C87_nibbles' depends on axioms: [propext, Quot.sound]
'LiCan.AppConv.C87_counterexample_odd_length' depends on axioms: [propext, Quot.sound]
'LiCan.AppConv.C87_counterexample_nibble_words' depends on axioms: [propext, Quot.sound]
'LiCan.AppConv.C88_three_values_of_20_bits' depends on axioms: [propext, Classical.choice, Quot.sound]
'LiCan.AppConv.C88_signed_round_trip' depends on axioms: [propext, Classical.choice, Quot.sound]
'LiCan.AppConv.C89_receive_uint12' depends on axioms: [propext, Classical.choice, Quot.sound]
'LiCan.AppConv.C89_transmit_uint12_partial' depends on axioms: [propext, Classical.choice, Quot.sound]
'LiCan.AppConv.C89_counterexample_transmit_copy' depends on axioms: [propext, Quot.sound]
'LiCan.Stack.C90_only_received_bytes_partial' depends on axioms: [propext, Classical.choice, Quot.sound]
'LiCan.Stack.C90_frame_arrives' depends on axioms: [propext, Quot.sound]
'LiCan.Stack.C90_extended' depends on axioms: [propext, Quot.sound]
'LiCan.Stack.C90_eleven_bits' depends on axioms: [propext, Quot.sound]
'LiCan.Stack.C90_counterexample_short_control' depends on axioms: [propext, Quot.sound]
'LiCan.Stack.C90_counterexample_length_code_nine' depends on axioms: [propext, Quot.sound]
'LiCan.Stack.C90_counterexample_overwritten_buffer' depends on axioms: [propext, Quot.sound]
'LiCan.Stack.C90_counterexample_remote' depends on axioms: [propext, Quot.sound]
'LiCan.C91_transmitted_numbers' depends on axioms: [propext, Classical.choice, Quot.sound]
'LiCan.Slave.C91_received_numbers' depends on axioms: [propext, Classical.choice, Quot.sound]
'LiCan.Stack.C92_online_partial' depends on axioms: [propext, Classical.choice, Quot.sound]
'LiCan.Stack.C92_reconnect_partial' depends on axioms: [propext, Classical.choice, Quot.sound]
'LiCan.Stack.C92_startup_running' depends on axioms: [propext, Classical.choice, Quot.sound]
'LiCan.Stack.C92_counterexample_startup' depends on axioms: [propext, Quot.sound]
'LiCan.Stack.C92_counterexample_after' depends on axioms: [propext, Quot.sound]
'LiCan.Stack.C92_counterexample_refused' depends on axioms: [propext, Quot.sound]
'LiCan.Stack.C93_partial' depends on axioms: [propext, Classical.choice, Quot.sound]
'LiCan.Stack.C93_counterexample_refused' depends on axioms: [propext, Quot.sound]
'LiCan.Stack.C93_counterexample_restart' depends on axioms: [propext, Quot.sound]
'LiCan.Stack.C94_frames_carry_own_numbers_partial' depends on axioms: [propext, Classical.choice, Quot.sound]
'LiCan.Stack.C94_two_slaves_never_collide_partial' depends on axioms: [propext, Classical.choice, Quot.sound]
'LiCan.Stack.C94_counterexample_unused_rows_answer' depends on axioms: [propext, Quot.sound]
'LiCan.Stack.C94_counterexample_type_change_while_silent' depends on axioms: [propext, Quot.sound]
'LiCan.Stack.C94_counterexample_no_module' depends on axioms: [propext, Quot.sound]
'LiCan.Stack.C95_slaves_do_not_hear_slaves_partial' depends on axioms: [propext, Classical.choice, Quot.sound]
'LiCan.Stack.C95_counterexample_default_number' depends on axioms: [propext, Quot.sound]
'LiCan.Lock.C96_tunnel_calls_are_serial_partial' depends on axioms: [propext, Classical.choice, Quot.sound]
'LiCan.Lock.C96_lock_is_released_partial' depends on axioms: [propext, Classical.choice, Quot.sound]
'LiCan.Lock.C96_refused_only_inside_partial' depends on axioms: [propext, Classical.choice, Quot.sound]
'LiCan.TnlBuf.C96_tunnel_bytes_partial' depends on axioms: [propext, Classical.choice, Quot.sound]
'LiCan.TnlBuf.C96_counterexample_time_slices' depends on axioms: [propext]
'LiCan.Lock.C97_error_handler_is_serial_partial' depends on axioms: [propext, Classical.choice, Quot.sound]
'LiCan.Lock.C97_lock_is_released_partial' depends on axioms: [propext, Classical.choice, Quot.sound]
'LiCan.Lock.C97_counterexample_no_lock' depends on axioms: [propext]
'LiCan.Lock.C97_counterexample_time_slices' depends on axioms: [propext]
'LiCan.ErrIrq.C98_calls_are_serial_partial' depends on axioms: [propext, Classical.choice, Quot.sound]
'LiCan.ErrIrq.C98_no_out_of_bounds_partial' depends on axioms: [propext, Classical.choice, Quot.sound]
'LiCan.ErrIrq.C98_reports_from_interrupts_partial' depends on axioms: [propext, Classical.choice, Quot.sound]
'LiCan.ErrIrq.C98_counterexample_split_decrement' depends on axioms: [propext, Quot.sound]
'LiCan.ErrIrq.C98_counterexample_retrieve_during_report' depends on axioms: [propext, Quot.sound]
'LiCan.ErrIrq.C98_counterexample_report_during_report' depends on axioms: [propext, Quot.sound]
'LiCan.C99_one_object_per_change_partial' depends on axioms: [propext, Classical.choice, Quot.sound]
'LiCan.C99_budget_partial' depends on axioms: [propext, Classical.choice, Quot.sound]
'LiCan.C99_reachable_partial' depends on axioms: [propext, Classical.choice, Quot.sound]
'LiCan.C99_applies' depends on axioms: [propext, Classical.choice, Quot.sound]
'LiCan.C99_history_partial' depends on axioms: [propext, Classical.choice, Quot.sound]
'LiCan.C99_counterexample' depends on axioms: [propext, Quot.sound]
'LiCan.C100_zeros' depends on axioms: [propext, Quot.sound]
'LiCan.C100_awake_keeps' depends on axioms: [propext, Quot.sound]
'LiCan.Slave.C100_frames_ignored' depends on axioms: [propext, Classical.choice, Quot.sound]
'LiCan.XInfo.C101_last_stored' depends on axioms: [propext, Quot.sound]
'LiCan.XInfo.C101_cleaned' depends on axioms: [propext, Quot.sound]
'LiCan.C102_by_number_partial' depends on axioms: [propext, Classical.choice, Quot.sound]
'LiCan.C102_counterexample_fatal' depends on axioms: [propext, Quot.sound]
'LiCan.C102_counterexample_redundant' depends on axioms: [propext, Quot.sound]
'LiCan.C102_counterexample_empty' depends on axioms: [propext, Quot.sound]
'LiCan.C103_last_error_partial' depends on axioms: [propext, Classical.choice, Quot.sound]
'LiCan.C103_report_then_get' depends on axioms: [propext, Classical.choice, Quot.sound]
'LiCan.C103_counterexample_no_entry' depends on axioms: [propext, Quot.sound]
'LiCan.C103_exact' depends on axioms: [propext, Classical.choice, Quot.sound]
'LiCan.Stack.C104_no_handler' depends on axioms: [propext, Quot.sound]
'LiCan.Stack.C104_no_start_handler' depends on axioms: [propext, Quot.sound]
'LiCan.Stack.C104_no_ack_handler' depends on axioms: [propext, Quot.sound]
'LiCan.Stack.C105_unknown_command' depends on axioms: [propext, Quot.sound]
'LiCan.Stack.C105_messages' depends on axioms: [propext, Quot.sound]
'LiCan.Mon.C106_safe' depends on axioms: [propext, Quot.sound]
'LiCan.Mon.C106_counterexample_unsupplied' depends on axioms: [propext, Quot.sound]
'LiCan.Mon.C107_transparent' depends on axioms: [propext, Classical.choice, Quot.sound]
'LiCan.Mon.C107_no_new_hang' depends on axioms: [propext, Classical.choice, Quot.sound]
'LiCan.Mon.C107_init' depends on axioms: [propext, Quot.sound]
'LiCan.Mon.C107_counterexample_refused' depends on axioms: [propext, Quot.sound]
'LiCan.Mon.C107_counterexample_objects' depends on axioms: [propext, Quot.sound]
'LiCan.Stack.C108_end_reported_partial' depends on axioms: [propext, Classical.choice, Quot.sound]
'LiCan.Stack.C108_nothing_else' depends on axioms: [propext, Classical.choice, Quot.sound]
'LiCan.Stack.C108_counterexample_first_rate' depends on axioms: [propext, Quot.sound]
'LiCan.Stack.C109_operates_or_searches_partial' depends on axioms: [propext, Classical.choice, Quot.sound]
'LiCan.Stack.C109_stopped_error' depends on axioms: [propext, Quot.sound]
'LiCan.Stack.C109_stays_silent' depends on axioms: [propext, Classical.choice, Quot.sound]
'LiCan.Stack.C109_counterexample' depends on axioms: [propext, Quot.sound]
'LiCan.Stack.C110_set' depends on axioms: [propext, Quot.sound]
'LiCan.Stack.C110_reported_rate_partial' depends on axioms: [propext, Classical.choice, Quot.sound]
'LiCan.Stack.C110_counterexample' depends on axioms: [propext, Quot.sound]
'LiCan.Stack.C111_leaves_iff' depends on axioms: [propext, Classical.choice, Quot.sound]
'LiCan.Stack.C111_in_time_partial' depends on axioms: [propext, Classical.choice, Quot.sound]
'LiCan.Stack.C111_stuck_iff' depends on axioms: [propext, Classical.choice, Quot.sound]
'LiCan.Stack.C111_counterexample' depends on axioms: [propext, Classical.choice, Quot.sound]
'LiCan.Node.C112_process_data_partial' depends on axioms: [propext, Quot.sound]
'LiCan.Stack.C112_async_data_partial' depends on axioms: [propext, Quot.sound]
'LiCan.Stack.C112_counterexample' depends on axioms: [propext, Quot.sound]
'LiCan.Stack.C112_counterexample_upload' depends on axioms: [propext, Quot.sound]
'LiCan.Stack.C113_ignored_iff' depends on axioms: [propext, Classical.choice, Quot.sound]
'LiCan.Stack.C113_window_partial' depends on axioms: [propext, Classical.choice, Quot.sound]
'LiCan.Stack.C113_deaf' depends on axioms: [propext, Classical.choice, Quot.sound]
'LiCan.Stack.C113_counterexample' depends on axioms: [propext, Classical.choice, Quot.sound]
'LiCan.Stack.C113_counterexample_window' depends on axioms: [propext, Quot.sound]
'LiCan.C52_peek_exact' depends on axioms: [propext, Classical.choice, Quot.sound]
'LiCan.C52_peek_right_iff' depends on axioms: [propext, Classical.choice, Quot.sound]
'LiCan.C52_peek_shows_stored_partial' depends on axioms: [propext, Classical.choice, Quot.sound]
'LiCan.C52_peek_counterexample' depends on axioms: [propext, Quot.sound]
'LiCan.Stack.C58_upload_returns_partial' depends on axioms: [propext, Quot.sound]
'LiCan.Stack.C58_counterexample' depends on axioms: [propext, Quot.sound]
'LiCan.Stack.C58_returns_iff' depends on axioms: [propext, Classical.choice, Quot.sound]
'LiCan.Stack.C58_stuck' depends on axioms: [propext, Classical.choice, Quot.sound]
'LiCan.C06_reported_iff' depends on axioms: [propext, Classical.choice, Quot.sound]
'LiCan.C06_complete_partial' depends on axioms: [propext, Classical.choice, Quot.sound]
'LiCan.C06_history_partial' depends on axioms: [propext, Classical.choice, Quot.sound]
'LiCan.C06_counterexample' depends on axioms: [propext, Quot.sound]
'LiCan.C53_distinct_after_change_partial' depends on axioms: [propext, Classical.choice, Quot.sound]
'LiCan.C53_distinct_iff' depends on axioms: [propext, Classical.choice, Quot.sound]
'LiCan.C53_counterexample' depends on axioms: [propext, Quot.sound]
'LiCan.Stack.C114_pace_partial' depends on axioms: [propext, Quot.sound]
'LiCan.Stack.C114_counterexample' depends on axioms: [propext, Quot.sound]
'LiCan.Stack.C114_counterexample_wrap' depends on axioms: [propext, Quot.sound]
'LiCan.Stack.C115_only_transfer' depends on axioms: [propext, Quot.sound]
'LiCan.Stack.C115_no_timeout' depends on axioms: [propext, Quot.sound]
'LiCan.C116_substitute' depends on axioms: [propext, Classical.choice, Quot.sound]
'LiCan.C116_untouched' depends on axioms: [propext, Quot.sound]
'LiCan.C116_once' depends on axioms: [propext, Classical.choice, Quot.sound]
'LiCan.C116_never_empty' depends on axioms: [propext, Classical.choice, Quot.sound]
'LiCan.C116_only_if_empty_partial' depends on axioms: [propext, Classical.choice, Quot.sound]
'LiCan.C116_histories' depends on axioms: [propext, Classical.choice, Quot.sound]
'LiCan.C116_counterexample' depends on axioms: [propext, Classical.choice, Quot.sound]
'LiCan.InfoMem.C117_valid' depends on axioms: [propext, Classical.choice, Quot.sound]
'LiCan.InfoMem.C117_valid_natural' depends on axioms: [propext, Classical.choice, Quot.sound]
'LiCan.InfoMem.C117_members' depends on axioms: [propext, Classical.choice, Quot.sound]
'LiCan.InfoMem.C117_rejected' depends on axioms: [propext, Classical.choice, Quot.sound]
'LiCan.InfoMem.C117_self' depends on axioms: [propext, Classical.choice, Quot.sound]
'LiCan.InfoMem.C117_counterexample' depends on axioms: [propext]
'LiCan.Stack.C118_filled_templates_safe' depends on axioms: [propext, Classical.choice, Quot.sound]
'LiCan.Stack.C118_usual_templates_safe' depends on axioms: [propext, Classical.choice, Quot.sound]
'LiCan.Stack.C118_counterexample_second_init' depends on axioms: [propext, Quot.sound]
'LiCan.Stack.C118_counterexample_type_change' depends on axioms: [propext, Quot.sound]
'LiCan.Cpu2.C119_monitor_never_transmits' depends on axioms: [propext, Quot.sound]
'LiCan.Cpu2.C120_listen_only_after_error' depends on axioms: [propext, Quot.sound]
'LiCan.Cpu2.C120_controller_not_started' depends on axioms: [propext, Quot.sound]
'LiCan.Cpu2.C120_operational_without_error' depends on axioms: [propext, Quot.sound]
'LiCan.Cpu2.C121_one_object' depends on axioms: [propext, Classical.choice, Quot.sound]
'LiCan.Cpu2.C121_main_cpu_frames_partial' depends on axioms: [propext, Classical.choice, Quot.sound]
'LiCan.Cpu2.C121_master_frames' depends on axioms: [propext, Classical.choice, Quot.sound]
'LiCan.Cpu2.C121_counterexample_transmit_only' depends on axioms: [propext, Quot.sound]
'LiCan.Cpu2.C122_reported_iff' depends on axioms: [propext, Classical.choice, Quot.sound]
'LiCan.Cpu2.C122_counterexample_main_fits' depends on axioms: [propext, Quot.sound]
'LiCan.Twin.C123_same_table' depends on axioms: [propext, Classical.choice, Quot.sound]
'LiCan.Twin.C123_same_silent_partial' depends on axioms: [propext, Classical.choice, Quot.sound]
'LiCan.Twin.C123_counterexample_voter' depends on axioms: [propext, Quot.sound]
'LiCan.Twin.C124_mirror_partial' depends on axioms: [propext, Classical.choice, Quot.sound]
'LiCan.Twin.C124_counterexample_switched' depends on axioms: [propext, Quot.sound]
'LiCan.Stack.C125_number_given_up_is_silent_partial' depends on axioms: [propext, Classical.choice, Quot.sound]
'LiCan.Stack.C125_counterexample_waiting_data' depends on axioms: [propext, Quot.sound]
'LiCan.Stack.C125_counterexample_session' depends on axioms: [propext, Quot.sound]
'LiCan.Stack.C125_counterexample_upload' depends on axioms: [propext, Quot.sound]
'LiCan.Stack.C125_counterexample_init_again' depends on axioms: [propext, Quot.sound]
'LiCan.C126_answered_iff' depends on axioms: [propext, Classical.choice, Quot.sound]
'LiCan.C126_process_data' depends on axioms: [propext, Classical.choice, Quot.sound]
'LiCan.C126_only_current' depends on axioms: [propext, Classical.choice, Quot.sound]
'LiCan.C126_hangs' depends on axioms: [propext, Classical.choice, Quot.sound]
'LiCan.C126_last_is_safe' depends on axioms: [propext, Classical.choice, Quot.sound]
'LiCan.C127_answered' depends on axioms: [propext, Classical.choice, Quot.sound]
'LiCan.C127_process_data' depends on axioms: [propext, Classical.choice, Quot.sound]
'LiCan.C127_counterexample_critical' depends on axioms: [propext, Quot.sound]
'LiCan.C127_counterexample_active' depends on axioms: [propext, Quot.sound]
'LiCan.C127_counterexample_silent' depends on axioms: [propext, Quot.sound]
'LiCan.C127_counterexample_null' depends on axioms: [propext, Quot.sound]
'LiCan.Stack.C128_same_as_calls' depends on axioms: [propext, Classical.choice, Quot.sound]
'LiCan.Stack.C128_start' depends on axioms: [propext, Quot.sound]
'LiCan.Stack.C128_stays_in_operation' depends on axioms: [propext, Classical.choice, Quot.sound]
'LiCan.Stack.C128_bus_off_stays' depends on axioms: [propext, Classical.choice, Quot.sound]
'LiCan.Stack.C128_carried_over' depends on axioms: [propext, Classical.choice, Quot.sound]
'LiCan.Stack.C128_counterexample_rate' depends on axioms: [propext, Quot.sound]
'LiCan.C129_number_by_type' depends on axioms: [propext, Classical.choice, Quot.sound]
'LiCan.C129_number_is_sent' depends on axioms: [propext, Classical.choice, Quot.sound]
'LiCan.C129_by_position' depends on axioms: [propext, Classical.choice, Quot.sound]
'LiCan.C129_counterexample_empty' depends on axioms: [propext, Quot.sound]
'LiCan.C129_counterexample_twice' depends on axioms: [propext, Quot.sound]
'LiCan.C130_answered_iff' depends on axioms: [propext, Classical.choice, Quot.sound]
'LiCan.C130_process_data_partial' depends on axioms: [propext, Classical.choice, Quot.sound]
'LiCan.C130_left_iff' depends on axioms: [propext, Classical.choice, Quot.sound]
'LiCan.C130_registered_again' depends on axioms: [propext, Classical.choice, Quot.sound]
'LiCan.C130_hangs' depends on axioms: [propext, Classical.choice, Quot.sound]
'LiCan.C130_still_sent' depends on axioms: [propext, Classical.choice, Quot.sound]
'LiCan.C130_counterexample_stale' depends on axioms: [propext, Quot.sound]
'LiCan.C130_counterexample_hang' depends on axioms: [propext, Quot.sound]
'LiCan.C130_counterexample_null' depends on axioms: [propext, Quot.sound]
'LiCan.C131_first_use_decides' depends on axioms: [propext, Quot.sound]
'LiCan.C131_whose' depends on axioms: [propext, Classical.choice, Quot.sound]
'LiCan.C131_right_iff' depends on axioms: [propext, Classical.choice, Quot.sound]
'LiCan.C131_own_data_partial' depends on axioms: [propext, Classical.choice, Quot.sound]
'LiCan.C131_exhausted' depends on axioms: [propext, Quot.sound]
'LiCan.C131_counterexample_data' depends on axioms: [propext, Quot.sound]
'LiCan.C54_process_request_object_partial' depends on axioms: [propext, Classical.choice, Quot.sound]
'LiCan.C54_counterexample' depends on axioms: [propext, Quot.sound]
'LiCan.C54_lost_iff' depends on axioms: [propext, Classical.choice, Quot.sound]
'LiCan.C54_kept' depends on axioms: [propext, Classical.choice, Quot.sound]
'LiCan.C54_counterexample_type' depends on axioms: [propext, Quot.sound]
'LiCan.Stack.C54_whole_stack_partial' depends on axioms: [propext, Classical.choice, Quot.sound]
'LiCan.Slave.C14_image' depends on axioms: [propext, Classical.choice, Quot.sound]
'LiCan.Slave.C14_calls' depends on axioms: [propext, Classical.choice, Quot.sound]
'LiCan.Slave.C14_valid_iff_once_partial' depends on axioms: [propext, Classical.choice, Quot.sound]
'LiCan.Slave.C14_objects' depends on axioms: [propext, Classical.choice, Quot.sound]
'LiCan.Slave.C14_counterexample_first_period' depends on axioms: [propext, Quot.sound]
'LiCan.Slave.C14_counterexample_long_request' depends on axioms: [propext, Quot.sound]
'LiCan.Slave.C14_counterexample_silent_awake' depends on axioms: [propext, Quot.sound]
'LiCan.Duo.C132_in_step' depends on axioms: [propext, Classical.choice, Quot.sound]
'LiCan.Duo.C132_main' depends on axioms: [propext, Classical.choice, Quot.sound]
'LiCan.Duo.C132_listens' depends on axioms: [propext, Classical.choice, Quot.sound]
'LiCan.Duo.C132_switch_partial' depends on axioms: [propext, Quot.sound]
'LiCan.Duo.C132_counterexample' depends on axioms: [propext, Quot.sound]
'LiCan.Duo.C132_counterexample_unset' depends on axioms: [propext, Quot.sound]
'LiCan.Duo.C132_counterexample_refused' depends on axioms: [propext, Quot.sound]
'LiCan.Stack.C50_exact' depends on axioms: [propext, Classical.choice, Quot.sound]
'LiCan.Stack.C50_counterexample_stale' depends on axioms: [propext, Quot.sound]
'LiCan.Stack.C50_partial' depends on axioms: [propext, Classical.choice, Quot.sound]
'LiCan.Stack.C50_counterexample' depends on axioms: [propext, Quot.sound]
'LiCan.Stack.C36_exact' depends on axioms: [propext, Classical.choice, Quot.sound]
'LiCan.Stack.C36_partial' depends on axioms: [propext, Classical.choice, Quot.sound]
'LiCan.Stack.C36_counterexample' depends on axioms: [propext, Quot.sound]
'LiCan.Stack.C42_exact' depends on axioms: [propext, Classical.choice, Quot.sound]
'LiCan.Stack.C42_right_iff' depends on axioms: [propext, Classical.choice, Quot.sound]
'LiCan.Stack.C42_counterexample_erased' depends on axioms: [propext, Quot.sound]
'LiCan.Stack.C42_object_count' depends on axioms: [propext, Quot.sound]
'LiCan.Stack.C42_counterexample' depends on axioms: [propext, Quot.sound]
'LiCan.Stack.C42_block_partial' depends on axioms: [propext, Classical.choice, Quot.sound]
'LiCan.Stack.C44_upload_partial' depends on axioms: [propext, Quot.sound]
'LiCan.Stack.C44_continued_partial' depends on axioms: [propext, Quot.sound]
'LiCan.Stack.C44_counterexample' depends on axioms: [propext, Quot.sound]
'LiCan.Stack.C44_exact' depends on axioms: [propext, Quot.sound]
'LiCan.Stack.C44_later_block' depends on axioms: [propext, Quot.sound]
'LiCan.FifoIrq.C133_partial' depends on axioms: [propext, Classical.choice, Quot.sound]
'LiCan.FifoIrq.C133_accounted' depends on axioms: [propext, Quot.sound]
'LiCan.FifoIrq.C133_refused' depends on axioms: [propext, Classical.choice, Quot.sound]
'LiCan.FifoIrq.C133_bounds' depends on axioms: [propext, Classical.choice, Quot.sound]
'LiCan.FifoIrq.C133_ahead' depends on axioms: [propext, Classical.choice, Quot.sound]
'LiCan.FifoIrq.C133_refused_early' depends on axioms: [propext, Quot.sound]
'LiCan.FifoIrq.C133_counterexample_twice' depends on axioms: [propext, Quot.sound]
'LiCan.FifoIrq.C133_counterexample_lost' depends on axioms: [propext, Quot.sound]
'LiCan.FifoIrq.C133_counterexample_memory' depends on axioms: [propext, Quot.sound]
'LiCan.Stack.C134_unchecked' depends on axioms: [propext, Quot.sound]
'LiCan.Stack.C134_return' depends on axioms: [propext, Quot.sound]
'LiCan.Stack.C134_partial' depends on axioms: [propext, Quot.sound]
'LiCan.Stack.C134_counterexample' depends on axioms: [propext, Quot.sound]
'LiCan.Node.C135_steps_on' depends on axioms: [propext, Quot.sound]
'LiCan.Node.C135_steps_off' depends on axioms: [propext, Quot.sound]
'LiCan.Node.C135_off_partial' depends on axioms: [propext, Classical.choice, Quot.sound]
'LiCan.Node.C135_on' depends on axioms: [propext, Classical.choice, Quot.sound]
'LiCan.Node.C135_counterexample_stale' depends on axioms: [propext, Quot.sound]
'LiCan.Node.C135_counterexample_silent' depends on axioms: [propext, Quot.sound]
'LiCan.Node.C135_counterexample_awake' depends on axioms: [propext, Quot.sound]
'LiCan.C136_partial' depends on axioms: [propext, Quot.sound]
'LiCan.C136_one_back' depends on axioms: [propext, Quot.sound]
'LiCan.C136_counterexample' depends on axioms: [propext, Quot.sound]
'LiCan.C136_counterexample_cause' depends on axioms: [propext, Quot.sound]
'LiCan.C136_uninterrupted' depends on axioms: [propext, Quot.sound]
'LiCan.C137_partial' depends on axioms: [propext, Quot.sound]
'LiCan.C137_steps' depends on axioms: [propext]
'LiCan.C137_bounded' depends on axioms: [propext]
'LiCan.C137_compare' depends on axioms: [propext, Quot.sound]
'LiCan.C137_counterexample_late' depends on axioms: [propext]
'LiCan.C137_counterexample_early' does not depend on any axioms
'LiCan.C137_counterexample_short' depends on axioms: [propext]
'LiCan.C137_counterexample_over' does not depend on any axioms
'LiCan.C137_counterexample_max' depends on axioms: [propext]
'LiCan.Node.C138_steps' depends on axioms: [propext, Quot.sound]
'LiCan.Node.C138_partial' depends on axioms: [propext, Classical.choice, Quot.sound]
'LiCan.Node.C138_silent' depends on axioms: [propext, Classical.choice, Quot.sound]
'LiCan.Node.C138_counterexample_mixed' depends on axioms: [propext, Quot.sound]
'LiCan.Node.C138_counterexample_silent' depends on axioms: [propext, Quot.sound]
'LiCan.Node.C138_counterexample_hang' depends on axioms: [propext, Quot.sound]
'LiCan.Mon.C139_steps' depends on axioms: [propext, Quot.sound]
'LiCan.Mon.C139_partial' depends on axioms: [propext, Quot.sound]
'LiCan.Mon.C139_window' depends on axioms: [propext, Quot.sound]
'LiCan.Mon.C139_false_alarm' depends on axioms: [propext, Quot.sound]
'LiCan.Mon.C139_blind' depends on axioms: [propext, Quot.sound]
'LiCan.Mon.C139_counterexample_alarm' depends on axioms: [propext, Classical.choice, Quot.sound]
'LiCan.Mon.C139_counterexample_twice' depends on axioms: [propext, Classical.choice, Quot.sound]
'LiCan.Mon.C139_frames' depends on axioms: [propext, Classical.choice, Quot.sound]
'LiCan.BufIrq.C140_steps' depends on axioms: [propext, Quot.sound]
'LiCan.BufIrq.C140_steps_messages' depends on axioms: [propext]
'LiCan.BufIrq.C140_partial' depends on axioms: [propext, Classical.choice, Quot.sound]
'LiCan.BufIrq.C140_exact' depends on axioms: [propext, Classical.choice, Quot.sound]
'LiCan.BufIrq.C140_counterexample_lost' depends on axioms: [propext]
'LiCan.BufIrq.C140_counterexample_overwritten' depends on axioms: [propext, Quot.sound]
'LiCan.BufIrq.C140_counterexample_wrap' depends on axioms: [propext]
'LiCan.TnlIrq.C141_partial' depends on axioms: [propext, Quot.sound]
'LiCan.TnlIrq.C141_exact' depends on axioms: [propext, Quot.sound]
'LiCan.TnlIrq.C141_window' depends on axioms: [propext, Quot.sound]
'LiCan.TnlIrq.C141_window_process' depends on axioms: [propext]
'LiCan.TnlIrq.C141_window_shutdown' depends on axioms: [propext]
'LiCan.TnlIrq.C141_blocked' depends on axioms: [propext, Quot.sound]
'LiCan.TnlIrq.C141_steps_messages' depends on axioms: [propext, Quot.sound]
'LiCan.TnlIrq.C141_steps_shutdown' depends on axioms: [propext]
'LiCan.TnlIrq.C141_steps_putc' depends on axioms: [propext, Quot.sound]
'LiCan.TnlIrq.C141_steps_process' depends on axioms: [propext, Quot.sound]
'LiCan.TnlIrq.C141_counterexample_stranger' depends on axioms: [propext]
'LiCan.TnlIrq.C141_counterexample_partner' depends on axioms: [propext]
'LiCan.TnlIrq.C141_counterexample_blocked' depends on axioms: [propext]
'LiCan.UlIrq.C142_partial' depends on axioms: [propext, Classical.choice, Quot.sound]
'LiCan.UlIrq.C142_stop' depends on axioms: [propext]
'LiCan.UlIrq.C142_safe' depends on axioms: [propext]
'LiCan.UlIrq.C142_window_oob' depends on axioms: [propext, Quot.sound]
'LiCan.UlIrq.C142_skip' depends on axioms: [propext, Classical.choice, Quot.sound]
'LiCan.UlIrq.C142_restart' depends on axioms: [propext, Classical.choice, Quot.sound]
'LiCan.UlIrq.C142_lost' depends on axioms: [propext]
'LiCan.UlIrq.C142_steps' depends on axioms: [propext, Quot.sound]
'LiCan.UlIrq.C142_steps_messages' depends on axioms: [propext, Quot.sound]
'LiCan.UlIrq.C142_counterexample_oob' depends on axioms: [propext]
'LiCan.UlIrq.C142_counterexample_skip' depends on axioms: [propext]
'LiCan.UlIrq.C142_counterexample_restart' depends on axioms: [propext]
'LiCan.UlIrq.C142_counterexample_stop' depends on axioms: [propext]
'LiCan.InfoMem.C143_crc' depends on axioms: [propext, Classical.choice, Quot.sound]
'LiCan.InfoMem.C143_exact' depends on axioms: [propext, Classical.choice, Quot.sound]
'LiCan.InfoMem.C143_partial' depends on axioms: [propext, Classical.choice, Quot.sound]
'LiCan.InfoMem.C143_setters' depends on axioms: [propext, Classical.choice, Quot.sound]
'LiCan.InfoMem.C143_counterexample' depends on axioms: [propext, Quot.sound]
'LiCan.Ending.C144_steps' depends on axioms: [propext, Quot.sound]
'LiCan.Ending.C144_frame_iff' depends on axioms: [propext, Quot.sound]
'LiCan.Ending.C144_silent_partial' depends on axioms: [propext, Quot.sound]
'LiCan.Ending.C144_counterexample' depends on axioms: [propext, Quot.sound]
'LiCan.FlowIrq.C145_exact' depends on axioms: [propext, Quot.sound]
'LiCan.FlowIrq.C145_window' depends on axioms: [propext, Quot.sound]
'LiCan.FlowIrq.C145_call' depends on axioms: [propext, Quot.sound]
'LiCan.FlowIrq.C145_partial' depends on axioms: [propext, Quot.sound]
'LiCan.FlowIrq.C145_steps' does not depend on any axioms
'LiCan.FlowIrq.C145_counterexample' does not depend on any axioms
'LiCan.Stack.C146_image' depends on axioms: [propext, Classical.choice, Quot.sound]
'LiCan.Stack.C146_period' depends on axioms: [propext, Classical.choice, Quot.sound]
'LiCan.Stack.C146_partial' depends on axioms: [propext, Classical.choice, Quot.sound]
'LiCan.Stack.C146_frozen' depends on axioms: [propext, Classical.choice, Quot.sound]
'LiCan.Stack.C146_counterexample_mixed' depends on axioms: [propext, Quot.sound]
'LiCan.Stack.C146_counterexample_lost' depends on axioms: [propext, Quot.sound]
'LiCan.MonAd.C147_exact' depends on axioms: [propext, Quot.sound]
'LiCan.MonAd.C147_search_kept' depends on axioms: [propext, Quot.sound]
'LiCan.MonAd.C147_both_partial' depends on axioms: [propext]
'LiCan.MonAd.C147_balanced' depends on axioms: [propext]
'LiCan.MonAd.C147_counterexample_boundary' depends on axioms: [propext, Quot.sound]
'LiCan.MonAd.C147_counterexample_extended' depends on axioms: [propext, Quot.sound]
'LiCan.CtrlQ.C148_partial' depends on axioms: [propext, Classical.choice, Quot.sound]
'LiCan.CtrlQ.C148_atomic' depends on axioms: [propext, Classical.choice, Quot.sound]
'LiCan.CtrlQ.C148_accepted_iff' depends on axioms: [propext, Classical.choice, Quot.sound]
'LiCan.CtrlQ.C148_dropped_harmless' depends on axioms: [propext, Classical.choice, Quot.sound]
'LiCan.CtrlQ.C148_counterexample_lost' depends on axioms: [propext, Quot.sound]
'LiCan.Stack.C149_search' depends on axioms: [propext, Classical.choice, Quot.sound]
'LiCan.Stack.C149_exact' depends on axioms: [propext, Classical.choice, Quot.sound]
'LiCan.Stack.C149_start' depends on axioms: [propext]
'LiCan.Stack.C149_history_partial' depends on axioms: [propext, Classical.choice, Quot.sound]
'LiCan.Stack.C149_others' depends on axioms: [propext, Classical.choice, Quot.sound]
'LiCan.Stack.C149_plain_partial' depends on axioms: [propext, Classical.choice, Quot.sound]
'LiCan.Stack.C149_nosearch_partial' depends on axioms: [propext, Quot.sound]
'LiCan.Stack.C149_counterexample_first' depends on axioms: [propext, Quot.sound]
'LiCan.Stack.C149_counterexample_command' depends on axioms: [propext, Quot.sound]
'LiCan.Stack.C149_counterexample_traffic' depends on axioms: [propext, Quot.sound]
'LiCan.C150_history' depends on axioms: [propext, Classical.choice, Quot.sound]
'LiCan.C150_type_partial' depends on axioms: [propext, Classical.choice, Quot.sound]
'LiCan.C150_counterexample_type' depends on axioms: [propext, Quot.sound]
'LiCan.C150_counterexample_second' depends on axioms: [propext, Quot.sound]
