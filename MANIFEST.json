{
 "claims": [
  {
   "property": "C01",
   "status": "proved",
   "theorems": [
    "LiCan.C01_ids_distinct",
    "LiCan.C01_id_layout",
    "LiCan.C01_counterexample_above_128"
   ],
   "note": ""
  },
  {
   "property": "C02",
   "status": "proved",
   "theorems": [
    "LiCan.C02_decode"
   ],
   "note": ""
  },
  {
   "property": "C03",
   "status": "proved",
   "theorems": [
    "LiCan.C03_filter_exact",
    "LiCan.C03_filter_complete"
   ],
   "note": ""
  },
  {
   "property": "C04",
   "status": "proved",
   "theorems": [
    "LiCan.C04_numbers_distinct",
    "LiCan.C04_number_range",
    "LiCan.C04_new_number"
   ],
   "note": ""
  },
  {
   "property": "C05",
   "status": "proved",
   "theorems": [
    "LiCan.C05_full",
    "LiCan.C05_first_free_row",
    "LiCan.C05_capacity"
   ],
   "note": ""
  },
  {
   "property": "C07",
   "status": "proved",
   "theorems": [
    "LiCan.C07_assigned_once",
    "LiCan.C07_never_reprogrammed",
    "LiCan.C07_rx_objects_distinct"
   ],
   "note": ""
  },
  {
   "property": "C08",
   "status": "proved",
   "theorems": [
    "LiCan.C08_attributed_to_owner",
    "LiCan.C08_configured_is_attributed",
    "LiCan.C08_wrong_slot",
    "LiCan.C08_identifier"
   ],
   "note": ""
  },
  {
   "property": "C09",
   "status": "proved",
   "theorems": [
    "LiCan.C09_process_data",
    "LiCan.C09_process_data_complete",
    "LiCan.C09_only_active"
   ],
   "note": ""
  },
  {
   "property": "C10",
   "status": "partial",
   "theorems": [
    "LiCan.C10_exact",
    "LiCan.C10_terminates_partial",
    "LiCan.C10_counterexample"
   ],
   "note": "False after a number change (C10_counterexample); exact characterisation C10_exact; proved for all histories without number/type changes. C126 decides it for every history with number changes."
  },
  {
   "property": "C11",
   "status": "partial",
   "theorems": [
    "LiCan.C11_silent_partial",
    "LiCan.C11_counterexample_active",
    "LiCan.C11_counterexample_registration",
    "LiCan.C11_counterexample_number_change"
   ],
   "note": "False in general (three counterexamples); proved for the histories stated in SilentOff."
  },
  {
   "property": "C12",
   "status": "proved",
   "theorems": [
    "LiCan.C12_silent_no_system_answer",
    "LiCan.C12_registered"
   ],
   "note": ""
  },
  {
   "property": "C13",
   "status": "proved",
   "theorems": [
    "LiCan.C13_critical_stays_out",
    "LiCan.C13_counterexample_no_way_back"
   ],
   "note": "Stays out until one of the listed wake-up operations; the documented 'no way back' is refuted."
  },
  {
   "property": "C15",
   "status": "proved",
   "theorems": [
    "LiCan.Slave.C15_matching_frame",
    "LiCan.Slave.C15_other_frames",
    "LiCan.Slave.C15_error_code"
   ],
   "note": ""
  },
  {
   "property": "C16",
   "status": "proved",
   "theorems": [
    "LiCan.CopySt.C16_snapshot",
    "LiCan.CopySt.C16_terminates",
    "LiCan.CopySt.C16_enables_interrupts"
   ],
   "note": ""
  },
  {
   "property": "C17",
   "status": "proved",
   "theorems": [
    "LiCan.Slave.C17_cycle_bounded",
    "LiCan.Slave.C17_set_cycle",
    "LiCan.Slave.C17_reported_period",
    "LiCan.Slave.C17_period_is_distance"
   ],
   "note": ""
  },
  {
   "property": "C18",
   "status": "proved",
   "theorems": [
    "LiCan.Slave.C18_first_request",
    "LiCan.Slave.C18_late_registration_lost",
    "LiCan.Slave.C18_first_status_once",
    "LiCan.Slave.C18_first_status_called"
   ],
   "note": ""
  },
  {
   "property": "C19",
   "status": "proved",
   "theorems": [
    "LiCan.C19_error_queue_fifo",
    "LiCan.C19_error_queue_fifo_strong"
   ],
   "note": ""
  },
  {
   "property": "C20",
   "status": "partial",
   "theorems": [
    "LiCan.C20_error_queue_oob_iff",
    "LiCan.C20_error_queue_in_bounds_partial",
    "LiCan.C20_error_queue_oob_counterexample"
   ],
   "note": "False of the code as stated: exact characterisation of the out-of-bounds histories plus a concrete one; safe part proved."
  },
  {
   "property": "C21",
   "status": "proved",
   "theorems": [
    "LiCan.C21_error_count_bounded",
    "LiCan.C21_error_report_refused",
    "LiCan.C21_error_report_fills"
   ],
   "note": ""
  },
  {
   "property": "C22",
   "status": "proved",
   "theorems": [
    "LiCan.C22_error_number_expand",
    "LiCan.C22_error_number_round_trip",
    "LiCan.C22_error_number_injective"
   ],
   "note": ""
  },
  {
   "property": "C23",
   "status": "proved",
   "theorems": [
    "LiCan.Slave.C23_refused",
    "LiCan.Slave.C23_refused_frame"
   ],
   "note": ""
  },
  {
   "property": "C24",
   "status": "proved",
   "theorems": [
    "LiCan.Slave.C24_serial_required",
    "LiCan.Slave.C24_large_serial",
    "LiCan.Slave.C24_silent_awake"
   ],
   "note": ""
  },
  {
   "property": "C25",
   "status": "proved",
   "theorems": [
    "LiCan.Slave.C25_status_broadcast",
    "LiCan.Slave.C25_status_direct"
   ],
   "note": ""
  },
  {
   "property": "C26",
   "status": "proved",
   "theorems": [
    "LiCan.Slave.C26_version_round_trip",
    "LiCan.Slave.C26_version_frames",
    "LiCan.Slave.C26_error_round_trip",
    "LiCan.Slave.C26_system_time"
   ],
   "note": ""
  },
  {
   "property": "C27",
   "status": "partial",
   "theorems": [
    "LiCan.Slave.C27_errors_reported_partial",
    "LiCan.Slave.C27_pending_is_fifo",
    "LiCan.Slave.C27_counterexample"
   ],
   "note": "False for errors of silent or removed modules (C27_counterexample); proved exactly which errors are sent, in order, and that the queue is emptied."
  },
  {
   "property": "C28",
   "status": "proved",
   "theorems": [
    "LiCan.C28_refused",
    "LiCan.C28_accepted",
    "LiCan.C28_no_voter"
   ],
   "note": ""
  },
  {
   "property": "C29",
   "status": "partial",
   "theorems": [
    "LiCan.C29_only_that_row_partial",
    "LiCan.C29_renumbered",
    "LiCan.C29_counterexample"
   ],
   "note": "False of the code: unknown pair writes outside the table (C29_counterexample); for registered pairs only that row changes and identifiers are renumbered."
  },
  {
   "property": "C30",
   "status": "partial",
   "theorems": [
    "LiCan.Slave.C30_counterexample",
    "LiCan.Slave.C30_rates_partial",
    "LiCan.Slave.C30_reported_rate_counterexample",
    "LiCan.Slave.C30_rates_history"
   ],
   "note": "False of the code (C30_counterexample: OK is returned for unsupported rates); what does happen is proved for all states and histories."
  },
  {
   "property": "C31",
   "status": "proved",
   "theorems": [
    "LiCan.Slave.C31_mode_restored",
    "LiCan.Slave.C31_stop_refused"
   ],
   "note": ""
  },
  {
   "property": "C32",
   "status": "proved",
   "theorems": [
    "LiCan.Stack.C32_fifo",
    "LiCan.Stack.C32_refused",
    "LiCan.Stack.C32_accepted"
   ],
   "note": ""
  },
  {
   "property": "C33",
   "status": "proved",
   "theorems": [
    "LiCan.Stack.C33_already_used",
    "LiCan.Stack.C33_kept",
    "LiCan.Stack.C33_history"
   ],
   "note": ""
  },
  {
   "property": "C34",
   "status": "partial",
   "theorems": [
    "LiCan.Stack.C34_exact",
    "LiCan.Stack.C34_partial",
    "LiCan.Stack.C34_counterexample"
   ],
   "note": "False for a connection type other than 0 (C34_counterexample, C34_exact); proved for type 0 and for refusals by the port."
  },
  {
   "property": "C35",
   "status": "proved",
   "theorems": [
    "LiCan.Stack.C35_stream",
    "LiCan.Stack.C35_putc"
   ],
   "note": ""
  },
  {
   "property": "C37",
   "status": "proved",
   "theorems": [
    "LiCan.Stack.C37_ignored"
   ],
   "note": ""
  },
  {
   "property": "C38",
   "status": "proved",
   "theorems": [
    "LiCan.C38_buffer_is_fifo",
    "LiCan.C38_buffer_in_bounds"
   ],
   "note": ""
  },
  {
   "property": "C39",
   "status": "proved",
   "theorems": [
    "LiCan.C39_store_read_restore",
    "LiCan.C39_add_between_counterexample"
   ],
   "note": "Proved for reads between store and restore; a counterexample shows adds in between must be excluded."
  },
  {
   "property": "C40",
   "status": "proved",
   "theorems": [
    "LiCan.C40_hex_fields"
   ],
   "note": ""
  },
  {
   "property": "C41",
   "status": "proved",
   "theorems": [
    "LiCan.Stack.C41_version_name",
    "LiCan.Stack.C41_info_name"
   ],
   "note": ""
  },
  {
   "property": "C43",
   "status": "partial",
   "theorems": [
    "LiCan.Stack.C43_exact",
    "LiCan.Stack.C43_goes_on",
    "LiCan.Stack.C43_refused_partial",
    "LiCan.Stack.C43_counterexample"
   ],
   "note": "False: the refused second request ends the running transfer (C43_counterexample). Proved: it is refused, answered with the error and buffer and counters are unchanged. C43_exact, C43_goes_on: only the name and the busy mark are lost; blocks are still handed over and acknowledged."
  },
  {
   "property": "C45",
   "status": "proved",
   "theorems": [
    "LiCan.Stack.C45_termination",
    "LiCan.Stack.C45_failed_request"
   ],
   "note": ""
  },
  {
   "property": "C46",
   "status": "partial",
   "theorems": [
    "LiCan.Stack.C46_consistent",
    "LiCan.Stack.C46_corrupted_partial",
    "LiCan.Stack.C46_counterexample"
   ],
   "note": "Reset of corrupted memory proved for all fields but the baud rate, which is kept and made CRC-valid (C46_counterexample)."
  },
  {
   "property": "C47",
   "status": "proved",
   "theorems": [
    "LiCan.Stack.C47_first_registration",
    "LiCan.Stack.C47_refused"
   ],
   "note": ""
  },
  {
   "property": "C48",
   "status": "proved",
   "theorems": [
    "LiCan.Stack.C48_listens"
   ],
   "note": "For histories in which the application does not set the node mode itself."
  },
  {
   "property": "C49",
   "status": "proved",
   "theorems": [
    "LiCan.Stack.C49_cyclic",
    "LiCan.Stack.C49_all",
    "LiCan.Stack.C49_progress"
   ],
   "note": "Order, coverage and progress of the switches."
  },
  {
   "property": "C51",
   "status": "proved",
   "theorems": [
    "LiCan.Slave.C51_delay_bounded"
   ],
   "note": ""
  },
  {
   "property": "C55",
   "status": "partial",
   "theorems": [
    "LiCan.C55_exact",
    "LiCan.C55_init_clean_partial",
    "LiCan.C55_counterexample"
   ],
   "note": "False for a second initialisation (C55_counterexample); proved for the first. C55_exact: what a second initialisation leaves, and that the same frames are transmitted."
  },
  {
   "property": "C56",
   "status": "partial",
   "theorems": [
    "LiCan.Slave.C56_exact",
    "LiCan.Slave.C56_seen_iff",
    "LiCan.Slave.C56_bus_loss_partial",
    "LiCan.Slave.C56_no_false_alarm",
    "LiCan.Slave.C56_counterexample_microseconds"
   ],
   "note": "False if the maximum period does not fit 16 bits of ticks (counterexample); proved otherwise. C56_exact, C56_seen_iff: exact value and exact condition."
  },
  {
   "property": "C57",
   "status": "proved",
   "theorems": [
    "LiCan.Stack.C57_download"
   ],
   "note": ""
  },
  {
   "property": "C59",
   "status": "partial",
   "theorems": [
    "LiCan.Stack.C59_stuck",
    "LiCan.Stack.C59_partial",
    "LiCan.Stack.C59_counterexample"
   ],
   "note": "False of the code (C59_stuck, C59_counterexample); proved while fewer than four frames wait."
  },
  {
   "property": "C60",
   "status": "partial",
   "theorems": [
    "LiCan.Stack.C60_close",
    "LiCan.Stack.C60_reset",
    "LiCan.Stack.C60_partial",
    "LiCan.Stack.C60_counterexample"
   ],
   "note": "False for close and reset (C60_counterexample); proved for XON, XOFF, close acknowledge and close denial. C60_close, C60_reset: exact effect of the two commands that anybody may send."
  },
  {
   "property": "C61",
   "status": "partial",
   "theorems": [
    "LiCan.Stack.C61_partial",
    "LiCan.Stack.C61_counterexample"
   ],
   "note": "False (C61_counterexample); proved that exactly the payload of the data object is handed over, once."
  },
  {
   "property": "C62",
   "status": "partial",
   "theorems": [
    "LiCan.Stack.C62_exact",
    "LiCan.Stack.C62_rest_iff",
    "LiCan.Stack.C62_partial",
    "LiCan.Stack.C62_counterexample"
   ],
   "note": "\"Not before\" is false (C62_counterexample); proved that the object is handed over once the tick is beyond the compared value. C62_exact, C62_rest_iff: exact condition."
  },
  {
   "property": "C63",
   "status": "partial",
   "theorems": [
    "LiCan.Stack.C63_exact",
    "LiCan.Stack.C63_listening",
    "LiCan.Stack.C63_partial",
    "LiCan.Stack.C63_queue_partial",
    "LiCan.Stack.C63_counterexample"
   ],
   "note": "C63_counterexample: a frame queued during the startup search is handed to the driver. Proved: received frames are only noted; the queue is silent in the listening part. C63_exact, C63_listening: the queue in each state of the search."
  },
  {
   "property": "C64",
   "status": "partial",
   "theorems": [
    "LiCan.Stack.C64_partial",
    "LiCan.Stack.C64_counterexample"
   ],
   "note": "C64_counterexample: startup with LI_CAN_SLV_RECONNECT_PROCESS_STARTUP_CHECK_LEC. Proved for online searches."
  },
  {
   "property": "C65",
   "status": "partial",
   "theorems": [
    "LiCan.Stack.C65_partial",
    "LiCan.Stack.C65_counterexample",
    "LiCan.Stack.C65_lasts",
    "LiCan.Stack.C65_never"
   ],
   "note": "C65_counterexample: tick counter wraps within the startup time. Proved otherwise."
  },
  {
   "property": "C66",
   "status": "proved",
   "theorems": [
    "LiCan.Stack.C66_version",
    "LiCan.Stack.C66_version_long",
    "LiCan.Stack.C66_info"
   ],
   "note": ""
  },
  {
   "property": "C67",
   "status": "proved",
   "theorems": [
    "LiCan.Stack.C67_announced"
   ],
   "note": ""
  },
  {
   "property": "C68",
   "status": "partial",
   "theorems": [
    "LiCan.Stack.C68_partial",
    "LiCan.Stack.C68_counterexample"
   ],
   "note": "C68_counterexample: the driver refuses the definition, the session is granted and the wide filter stays. Proved for an accepting driver."
  },
  {
   "property": "C69",
   "status": "proved",
   "theorems": [
    "LiCan.Stack.C69_download_start",
    "LiCan.Stack.C69_upload_start",
    "LiCan.Stack.C69_app_start"
   ],
   "note": ""
  },
  {
   "property": "C70",
   "status": "proved",
   "theorems": [
    "LiCan.Stack.C70_download_end",
    "LiCan.Stack.C70_upload_end",
    "LiCan.Stack.C70_upload_block"
   ],
   "note": ""
  },
  {
   "property": "C71",
   "status": "proved",
   "theorems": [
    "LiCan.Stack.C71_close",
    "LiCan.Stack.C71_shutdown"
   ],
   "note": ""
  },
  {
   "property": "C72",
   "status": "proved",
   "theorems": [
    "LiCan.Stack.C72_restart",
    "LiCan.Stack.C72_start"
   ],
   "note": ""
  },
  {
   "property": "C73",
   "status": "proved",
   "theorems": [
    "LiCan.Stack.C73_frame_ends"
   ],
   "note": ""
  },
  {
   "property": "C74",
   "status": "partial",
   "theorems": [
    "LiCan.Stack.C74_unbound",
    "LiCan.Stack.C74_partial",
    "LiCan.Stack.C74_counterexample"
   ],
   "note": "C74_counterexample: refused version request, data for another module, info request. Proved for answered version requests. C74_unbound: data, block end and end are not bound to a module."
  },
  {
   "property": "C75",
   "status": "partial",
   "theorems": [
    "LiCan.Mon.C75_main_first_partial",
    "LiCan.Mon.C75_monitor_first_partial",
    "LiCan.Mon.C75_counterexample_long_request",
    "LiCan.Mon.C75_counterexample_late_monitor",
    "LiCan.Mon.C75_counterexample_switched"
   ],
   "note": "Both orders of the requests. Missing: requests longer than one byte, number 129 and above, modules switched during the period, incomplete registrations; counterexamples for the first and third and for late frames of the monitor."
  },
  {
   "property": "C76",
   "status": "partial",
   "theorems": [
    "LiCan.Mon.C76_monitor_covers_modules_partial",
    "LiCan.Mon.C76_counterexample_unwatched"
   ],
   "note": "Proved for completed registrations without number change; C76_counterexample_unwatched."
  },
  {
   "property": "C77",
   "status": "proved",
   "theorems": [
    "LiCan.Mon.C77_no_verdict_without_monitor",
    "LiCan.Mon.C77_no_verdict_without_main",
    "LiCan.Mon.C77_counterexample_stale"
   ],
   "note": "C77_counterexample_stale shows the consequence: validity survives the loss of a controller and of all data."
  },
  {
   "property": "C78",
   "status": "proved",
   "theorems": [
    "LiCan.Mon.C78_same_rate"
   ],
   "note": ""
  },
  {
   "property": "C79",
   "status": "partial",
   "theorems": [
    "LiCan.Mon.C79_modes_agree_partial",
    "LiCan.Mon.C79_counterexample_stopped",
    "LiCan.Mon.C79_counterexample_refused",
    "LiCan.Mon.C79_counterexample_baud"
   ],
   "note": "Modes operational and listen with an accepting driver; counterexamples for stopped, refusal and baud rate."
  },
  {
   "property": "C80",
   "status": "proved",
   "theorems": [
    "LiCan.Mon.C80_monitor_does_not_interfere"
   ],
   "note": ""
  },
  {
   "property": "C81",
   "status": "proved",
   "theorems": [
    "LiCan.Mon.C81_no_verdict_on_doubled_or_long_request"
   ],
   "note": ""
  },
  {
   "property": "C82",
   "status": "proved",
   "theorems": [
    "LiCan.Slave.C82_time_function",
    "LiCan.Slave.C82_time_unchanged",
    "LiCan.Slave.C82_last_valid_time",
    "LiCan.Slave.C82_counterexample_same_type"
   ],
   "note": "C82_counterexample_same_type: the second module of a type has no valid-time function."
  },
  {
   "property": "C83",
   "status": "proved",
   "theorems": [
    "LiCan.CpFifo.C83_fifo_is_a_bounded_queue",
    "LiCan.CpFifo.C83_index_in_range"
   ],
   "note": ""
  },
  {
   "property": "C84",
   "status": "proved",
   "theorems": [
    "LiCan.CpDrv.C84_message",
    "LiCan.CpDrv.C84_long_frame_is_undefined",
    "LiCan.CpDrv.C84_identifier",
    "LiCan.CpDrv.C84_identifier_is_truncated",
    "LiCan.CpDrv.C84_transmit_path",
    "LiCan.CpDrv.C84_returned",
    "LiCan.CpDrv.C84_order",
    "LiCan.CpDrv.C84_counterexample_overtaking"
   ],
   "note": ""
  },
  {
   "property": "C85",
   "status": "partial",
   "theorems": [
    "LiCan.Stack.C85_all_frames_are_legal_partial",
    "LiCan.Stack.C85_frames_reach_the_bus_partial",
    "LiCan.Stack.C85_counterexample_number_zero",
    "LiCan.Stack.C85_counterexample_long_template"
   ],
   "note": "Proved for at most four modules (a fifth one without a valid number gets 129), templates of at most eight bytes, a voter admitting numbers 1..128 and application calls with numbers up to 128. Without a voter one bus message sets number 0: answers with identifier 65535, sent as 0x7FF (C85_counterexample_number_zero); a template of nine bytes overflows the driver message (C85_counterexample_long_template)."
  },
  {
   "property": "C86",
   "status": "proved",
   "theorems": [
    "LiCan.Slave.C86_same_delays_iff",
    "LiCan.Slave.C86_counterexample_serials",
    "LiCan.Slave.C86_closed_form",
    "LiCan.Slave.C86_thirteen_values",
    "LiCan.Slave.C86_fourteen_nodes_collide"
   ],
   "note": "C86_counterexample_serials: serial numbers 1 and 65537 give the same delays for ever."
  },
  {
   "property": "C87",
   "status": "proved",
   "theorems": [
    "LiCan.AppConv.C87_uint16",
    "LiCan.AppConv.C87_uint16_round_trip",
    "LiCan.AppConv.C87_uint32",
    "LiCan.AppConv.C87_uint32_round_trip",
    "LiCan.AppConv.C87_bits",
    "LiCan.AppConv.C87_nibbles",
    "LiCan.AppConv.C87_counterexample_odd_length",
    "LiCan.AppConv.C87_counterexample_nibble_words"
   ],
   "note": "Counterexamples: odd length (stale byte), 16-bit numbers through the nibble functions."
  },
  {
   "property": "C88",
   "status": "proved",
   "theorems": [
    "LiCan.AppConv.C88_three_values_of_20_bits",
    "LiCan.AppConv.C88_signed_round_trip"
   ],
   "note": ""
  },
  {
   "property": "C89",
   "status": "partial",
   "theorems": [
    "LiCan.AppConv.C89_receive_uint12",
    "LiCan.AppConv.C89_transmit_uint12_partial",
    "LiCan.AppConv.C89_counterexample_transmit_copy"
   ],
   "note": "Partial: the transmit half holds for a direct call with the whole object. The stack hands over a copy of eight bytes, beyond which all three transmit conversions read (C89_counterexample_transmit_copy)."
  },
  {
   "property": "C90",
   "status": "partial",
   "theorems": [
    "LiCan.Stack.C90_only_received_bytes_partial",
    "LiCan.Stack.C90_frame_arrives",
    "LiCan.Stack.C90_extended",
    "LiCan.Stack.C90_eleven_bits",
    "LiCan.Stack.C90_counterexample_short_control",
    "LiCan.Stack.C90_counterexample_length_code_nine",
    "LiCan.Stack.C90_counterexample_overwritten_buffer",
    "LiCan.Stack.C90_counterexample_remote"
   ],
   "note": "Partial: for messages of at most eight bytes, control messages of exactly eight. Shorter control messages are completed by uninitialised bytes, which reach the bus; a length code above eight copies nothing; identifier and bytes may be of two different messages; remote frames are handled as data frames (four counterexamples). C90_eleven_bits: the low bits of the identifier only."
  },
  {
   "property": "C91",
   "status": "proved",
   "theorems": [
    "LiCan.C91_transmitted_numbers",
    "LiCan.Slave.C91_received_numbers"
   ],
   "note": ""
  },
  {
   "property": "C92",
   "status": "partial",
   "theorems": [
    "LiCan.Stack.C92_online_partial",
    "LiCan.Stack.C92_reconnect_partial",
    "LiCan.Stack.C92_startup_running",
    "LiCan.Stack.C92_counterexample_startup",
    "LiCan.Stack.C92_counterexample_after",
    "LiCan.Stack.C92_counterexample_refused"
   ],
   "note": "Online searches: RECONNECT during, RUNNING after (online); RECONNECT only during a search (reconnect); lcsa_start reports RUNNING (startup_running). False otherwise: RUNNING while the startup search only listens, INIT after it though operational, RECONNECT for ever if the driver refuses the change back (counterexamples)."
  },
  {
   "property": "C93",
   "status": "partial",
   "theorems": [
    "LiCan.Stack.C93_partial",
    "LiCan.Stack.C93_counterexample_refused",
    "LiCan.Stack.C93_counterexample_restart"
   ],
   "note": "Holds with a driver that does as it is told and no lcsa_start during a search. Otherwise false: a refused change back ends the search without a word; lcsa_start drops a running online search (counterexamples)."
  },
  {
   "property": "C94",
   "status": "partial",
   "theorems": [
    "LiCan.Stack.C94_frames_carry_own_numbers_partial",
    "LiCan.Stack.C94_two_slaves_never_collide_partial",
    "LiCan.Stack.C94_counterexample_unused_rows_answer",
    "LiCan.Stack.C94_counterexample_type_change_while_silent",
    "LiCan.Stack.C94_counterexample_no_module"
   ],
   "note": "Holds for numbers distinct within the node, no exchange of types, no frame to 125..127 unless the node uses that number, and no frame before the first registration. Otherwise false: unused rows answer for 125..127, a type change while silent leaves identifiers unset (frame with identifier 0), errors without a module are sent as 125 (counterexamples)."
  },
  {
   "property": "C95",
   "status": "partial",
   "theorems": [
    "LiCan.Stack.C95_slaves_do_not_hear_slaves_partial",
    "LiCan.Stack.C95_counterexample_default_number"
   ],
   "note": "Same hypotheses as C94. Default numbers of rows 4..7 (129..132) break it (counterexample)."
  },
  {
   "property": "C96",
   "status": "partial",
   "theorems": [
    "LiCan.Lock.C96_tunnel_calls_are_serial_partial",
    "LiCan.Lock.C96_lock_is_released_partial",
    "LiCan.Lock.C96_refused_only_inside_partial",
    "LiCan.TnlBuf.C96_tunnel_bytes_partial",
    "LiCan.TnlBuf.C96_counterexample_time_slices"
   ],
   "note": "Lock and data accesses step by step; proved for preemption (a context runs only when those that interrupted it have ended). The counterexample shows a byte lost and the lock stuck with time slices. The tunnel state itself (mod_own, open/close) is not in the guarded data."
  },
  {
   "property": "C97",
   "status": "partial",
   "theorems": [
    "LiCan.Lock.C97_error_handler_is_serial_partial",
    "LiCan.Lock.C97_lock_is_released_partial",
    "LiCan.Lock.C97_counterexample_no_lock",
    "LiCan.Lock.C97_counterexample_time_slices"
   ],
   "note": "Proved for preemption; the guarded code is an arbitrary step function on arbitrary shared data. Counterexamples without the option and with time slices."
  },
  {
   "property": "C98",
   "status": "partial",
   "theorems": [
    "LiCan.ErrIrq.C98_calls_are_serial_partial",
    "LiCan.ErrIrq.C98_no_out_of_bounds_partial",
    "LiCan.ErrIrq.C98_reports_from_interrupts_partial",
    "LiCan.ErrIrq.C98_counterexample_split_decrement",
    "LiCan.ErrIrq.C98_counterexample_retrieve_during_report",
    "LiCan.ErrIrq.C98_counterexample_report_during_report"
   ],
   "note": "One access per step, interrupts execute complete calls. Politeness of the interrupts is a hypothesis (counterexamples for each violation), count++/count-- single instructions (counterexample), histories with the index overrun of C20 excluded."
  },
  {
   "property": "C99",
   "status": "partial",
   "theorems": [
    "LiCan.C99_one_object_per_change_partial",
    "LiCan.C99_budget_partial",
    "LiCan.C99_reachable_partial",
    "LiCan.C99_applies",
    "LiCan.C99_history_partial",
    "LiCan.C99_counterexample"
   ],
   "note": "False in general (counterexample). Proved: the exact budget (the first k changes succeed, k unused message objects; all later ones fail) and reachability after a successful change. The positive parts assume that the driver accepts every definition of a message object."
  },
  {
   "property": "C100",
   "status": "proved",
   "theorems": [
    "LiCan.C100_zeros",
    "LiCan.C100_awake_keeps",
    "LiCan.Slave.C100_frames_ignored"
   ],
   "note": "Induction over the objects of the module; the frame part uses the invariants of the reachable states."
  },
  {
   "property": "C101",
   "status": "proved",
   "theorems": [
    "LiCan.XInfo.C101_last_stored",
    "LiCan.XInfo.C101_cleaned"
   ],
   "note": "Induction over the calls; the checksum is an arbitrary function, and memory is assumed to survive the reset."
  },
  {
   "property": "C102",
   "status": "partial",
   "theorems": [
    "LiCan.C102_by_number_partial",
    "LiCan.C102_counterexample_fatal",
    "LiCan.C102_counterexample_redundant",
    "LiCan.C102_counterexample_empty"
   ],
   "note": "Partial because the full statement is false (three counterexamples beside it). Proved by refinement to the list of errors reported and not yet retrieved."
  },
  {
   "property": "C103",
   "status": "partial",
   "theorems": [
    "LiCan.C103_last_error_partial",
    "LiCan.C103_report_then_get",
    "LiCan.C103_counterexample_no_entry",
    "LiCan.C103_exact"
   ],
   "note": "Partial because the part about an empty store is false (counterexample). FATAL errors are never stored. C103_exact: every retrieval after every history."
  },
  {
   "property": "C104",
   "status": "proved",
   "theorems": [
    "LiCan.Stack.C104_no_handler",
    "LiCan.Stack.C104_no_start_handler",
    "LiCan.Stack.C104_no_ack_handler"
   ],
   "note": "Case split over the commands of the protocol."
  },
  {
   "property": "C105",
   "status": "proved",
   "theorems": [
    "LiCan.Stack.C105_unknown_command",
    "LiCan.Stack.C105_messages"
   ],
   "note": "The frame is the one handed to the driver; whether the driver takes it is the environment's choice."
  },
  {
   "property": "C106",
   "status": "proved",
   "theorems": [
    "LiCan.Mon.C106_safe",
    "LiCan.Mon.C106_counterexample_unsupplied"
   ],
   "note": "Inductive invariant over all inputs, no restriction to completed registrations; only hypothesis: templates without NULL monitor conversions (needed, see the counterexample)."
  },
  {
   "property": "C107",
   "status": "proved",
   "theorems": [
    "LiCan.Mon.C107_transparent",
    "LiCan.Mon.C107_no_new_hang",
    "LiCan.Mon.C107_init",
    "LiCan.Mon.C107_counterexample_refused",
    "LiCan.Mon.C107_counterexample_objects"
   ],
   "note": "Simulation between the two models: node functions commute with a longer log (Lemmas/NodeLog), so calls of the process image do not influence anything else (Lemmas/SlaveLog); the monitor part only adds calls. Calls without arguments (request and process image callbacks) are not compared, since the process image is what the monitor changes (C75)."
  },
  {
   "property": "C108",
   "status": "partial",
   "theorems": [
    "LiCan.Stack.C108_end_reported_partial",
    "LiCan.Stack.C108_nothing_else",
    "LiCan.Stack.C108_counterexample_first_rate"
   ],
   "note": "Invariant over all histories: a search that met an error has a cause other than 'no traffic'. Each processing either ends the search through can_reconnect_off or leaves the modules and the error queue alone. The table of numbers is computed independently from the position of the rate."
  },
  {
   "property": "C109",
   "status": "partial",
   "theorems": [
    "LiCan.Stack.C109_operates_or_searches_partial",
    "LiCan.Stack.C109_stopped_error",
    "LiCan.Stack.C109_stays_silent",
    "LiCan.Stack.C109_counterexample"
   ],
   "note": "Invariant over all histories after lcsa_start. _partial: excludes the state STOPPED and lcsa functions that set the node mode; the exclusion is necessary (C109_stopped_error, C109_stays_silent, C109_counterexample)."
  },
  {
   "property": "C110",
   "status": "partial",
   "theorems": [
    "LiCan.Stack.C110_set",
    "LiCan.Stack.C110_reported_rate_partial",
    "LiCan.Stack.C110_counterexample"
   ],
   "note": "Invariant over all histories. _partial: lcsa_set_baudrate on a running node (C110_counterexample). C110_set: exact effect of lcsa_set_baudrate in every state."
  },
  {
   "property": "C111",
   "status": "partial",
   "theorems": [
    "LiCan.Stack.C111_leaves_iff",
    "LiCan.Stack.C111_in_time_partial",
    "LiCan.Stack.C111_stuck_iff",
    "LiCan.Stack.C111_counterexample"
   ],
   "note": "C111_leaves_iff and C111_stuck_iff are exact; C111_in_time_partial excludes the wrap, C111_counterexample shows why."
  },
  {
   "property": "C112",
   "status": "partial",
   "theorems": [
    "LiCan.Node.C112_process_data_partial",
    "LiCan.Stack.C112_async_data_partial",
    "LiCan.Stack.C112_counterexample",
    "LiCan.Stack.C112_counterexample_upload"
   ],
   "note": "_partial: process data (with conversions that succeed) and asynchronous data; false for system messages, error messages and uploads (C112_counterexample, C112_counterexample_upload)."
  },
  {
   "property": "C113",
   "status": "partial",
   "theorems": [
    "LiCan.Stack.C113_ignored_iff",
    "LiCan.Stack.C113_window_partial",
    "LiCan.Stack.C113_deaf",
    "LiCan.Stack.C113_counterexample",
    "LiCan.Stack.C113_counterexample_window"
   ],
   "note": "C113_ignored_iff is exact (when the last search ended is taken from the history, not from the stored field); C113_window_partial excludes the wrap, C113_deaf and the counterexamples show why. The same lines of the monitor build (io_can_mon_hw_handler.c) are not modelled."
  },
  {
   "property": "C52",
   "status": "partial",
   "theorems": [
    "LiCan.C52_peek_exact",
    "LiCan.C52_peek_right_iff",
    "LiCan.C52_peek_shows_stored_partial",
    "LiCan.C52_peek_counterexample"
   ],
   "note": "False of the code in general (counterexample); proved when the read position is 0 or the queue is full. C52_peek_exact and C52_peek_right_iff are exact."
  },
  {
   "property": "C58",
   "status": "partial",
   "theorems": [
    "LiCan.Stack.C58_upload_returns_partial",
    "LiCan.Stack.C58_counterexample",
    "LiCan.Stack.C58_returns_iff",
    "LiCan.Stack.C58_stuck"
   ],
   "note": "False at the wrap of the tick counter (C58_counterexample); proved for clocks that exceed every waited-for value. C58_returns_iff is exact for arbitrary clocks."
  },
  {
   "property": "C06",
   "status": "partial",
   "theorems": [
    "LiCan.C06_reported_iff",
    "LiCan.C06_complete_partial",
    "LiCan.C06_history_partial",
    "LiCan.C06_counterexample"
   ],
   "note": "False of the code (C06_counterexample); proved when enough message objects are free and the driver accepts. C06_reported_iff is exact."
  },
  {
   "property": "C53",
   "status": "partial",
   "theorems": [
    "LiCan.C53_distinct_after_change_partial",
    "LiCan.C53_distinct_iff",
    "LiCan.C53_counterexample"
   ],
   "note": "False of the code (C53_counterexample); proved if the new number is unused. C53_distinct_iff is exact."
  },
  {
   "property": "C114",
   "status": "partial",
   "theorems": [
    "LiCan.Stack.C114_pace_partial",
    "LiCan.Stack.C114_counterexample",
    "LiCan.Stack.C114_counterexample_wrap"
   ],
   "note": "False for other tick lengths (C114_counterexample) and at the wrap (C114_counterexample_wrap)."
  },
  {
   "property": "C115",
   "status": "proved",
   "theorems": [
    "LiCan.Stack.C115_only_transfer",
    "LiCan.Stack.C115_no_timeout"
   ],
   "note": "By induction over the history; C115_no_timeout is a consequence: an abandoned transfer blocks further ones for ever."
  },
  {
   "property": "C116",
   "status": "partial",
   "theorems": [
    "LiCan.C116_substitute",
    "LiCan.C116_untouched",
    "LiCan.C116_once",
    "LiCan.C116_never_empty",
    "LiCan.C116_only_if_empty_partial",
    "LiCan.C116_histories",
    "LiCan.C116_counterexample"
   ],
   "note": "False for a refusing controller (C116_counterexample); C116_only_if_empty_partial assumes one that accepts all objects."
  },
  {
   "property": "C117",
   "status": "proved",
   "theorems": [
    "LiCan.InfoMem.C117_valid",
    "LiCan.InfoMem.C117_valid_natural",
    "LiCan.InfoMem.C117_members",
    "LiCan.InfoMem.C117_rejected",
    "LiCan.InfoMem.C117_self",
    "LiCan.InfoMem.C117_counterexample"
   ],
   "note": "C117_counterexample: 32-bit platform, natural alignment, user bytes: the pending download mode is lost at the next start. C117_valid_natural: fine without trailing padding."
  },
  {
   "property": "C118",
   "status": "proved",
   "theorems": [
    "LiCan.Stack.C118_filled_templates_safe",
    "LiCan.Stack.C118_usual_templates_safe",
    "LiCan.Stack.C118_counterexample_second_init",
    "LiCan.Stack.C118_counterexample_type_change"
   ],
   "note": "C118_counterexample_second_init: the send register survives lcsa_init, registering a module with fewer transmit objects then makes the next process request use NULL. C118_counterexample_type_change: system message 0x31 to a template with fewer receive objects leaves the old message object on; an empty frame calls NULL. Changing the number of an unknown module is the known exception of C29."
  },
  {
   "property": "C119",
   "status": "proved",
   "theorems": [
    "LiCan.Cpu2.C119_monitor_never_transmits"
   ],
   "note": "Frames an application produces by calling the transfer or tunnel functions itself on the monitor CPU are outside the model (control messages of the master are discarded there, io_can_async.c:362-367)."
  },
  {
   "property": "C120",
   "status": "proved",
   "theorems": [
    "LiCan.Cpu2.C120_listen_only_after_error",
    "LiCan.Cpu2.C120_controller_not_started",
    "LiCan.Cpu2.C120_operational_without_error"
   ],
   "note": ""
  },
  {
   "property": "C121",
   "status": "partial",
   "theorems": [
    "LiCan.Cpu2.C121_one_object",
    "LiCan.Cpu2.C121_main_cpu_frames_partial",
    "LiCan.Cpu2.C121_master_frames",
    "LiCan.Cpu2.C121_counterexample_transmit_only"
   ],
   "note": "Partial: with the length check the claim for the main CPU's messages is false (C121_counterexample_transmit_only); the theorem gives the exact condition. Type changes and a second lcsa_init are excluded from the histories, the controller accepts every message object."
  },
  {
   "property": "C122",
   "status": "proved",
   "theorems": [
    "LiCan.Cpu2.C122_reported_iff",
    "LiCan.Cpu2.C122_counterexample_main_fits"
   ],
   "note": "C122_counterexample_main_fits: three receive and two transmit objects in a device with one row."
  },
  {
   "property": "C123",
   "status": "partial",
   "theorems": [
    "LiCan.Twin.C123_same_table",
    "LiCan.Twin.C123_same_silent_partial",
    "LiCan.Twin.C123_counterexample_voter"
   ],
   "note": "Partial: the silent/awake states differ with a voter (C123_counterexample_voter). That both CPUs see the same system messages in the same order is an assumption."
  },
  {
   "property": "C124",
   "status": "partial",
   "theorems": [
    "LiCan.Twin.C124_mirror_partial",
    "LiCan.Twin.C124_counterexample_switched"
   ],
   "note": "Partial: the monitor CPU need not have the module switched on although the main CPU has (C124_counterexample_switched: critical, then a number change with all message objects in use); the length condition is that of C121."
  },
  {
   "property": "C125",
   "status": "partial",
   "theorems": [
    "LiCan.Stack.C125_number_given_up_is_silent_partial",
    "LiCan.Stack.C125_counterexample_waiting_data",
    "LiCan.Stack.C125_counterexample_session",
    "LiCan.Stack.C125_counterexample_upload",
    "LiCan.Stack.C125_counterexample_init_again"
   ],
   "note": "Partial: hypotheses of C94, lcsa_init only before the first registration, and nothing may refer to the number (GivenUp). Each part of GivenUp that can be violated after a number change has a counterexample (waiting data, session, upload), so has the second lcsa_init."
  },
  {
   "property": "C126",
   "status": "proved",
   "theorems": [
    "LiCan.C126_answered_iff",
    "LiCan.C126_process_data",
    "LiCan.C126_only_current",
    "LiCan.C126_hangs",
    "LiCan.C126_last_is_safe"
   ],
   "note": "Complete characterisation for the calls covered (numbers 1 to 255; a number change by the master names a registered module; a type change is that of an awake module while all registered modules are counted)."
  },
  {
   "property": "C127",
   "status": "proved",
   "theorems": [
    "LiCan.C127_answered",
    "LiCan.C127_process_data",
    "LiCan.C127_counterexample_critical",
    "LiCan.C127_counterexample_active",
    "LiCan.C127_counterexample_silent",
    "LiCan.C127_counterexample_null"
   ],
   "note": "The statement is about the type change of an awake module; what goes wrong otherwise and for other modules is shown by C127_counterexample_critical/active/silent/null."
  },
  {
   "property": "C128",
   "status": "proved",
   "theorems": [
    "LiCan.Stack.C128_same_as_calls",
    "LiCan.Stack.C128_start",
    "LiCan.Stack.C128_stays_in_operation",
    "LiCan.Stack.C128_bus_off_stays",
    "LiCan.Stack.C128_carried_over",
    "LiCan.Stack.C128_counterexample_rate"
   ],
   "note": "C128_counterexample_rate: a start rate that does not exist is not noticed; lcsa_start returns OK and the controller was never given a rate."
  },
  {
   "property": "C129",
   "status": "proved",
   "theorems": [
    "LiCan.C129_number_by_type",
    "LiCan.C129_number_is_sent",
    "LiCan.C129_by_position",
    "LiCan.C129_counterexample_empty",
    "LiCan.C129_counterexample_twice"
   ],
   "note": "C129_counterexample_empty and C129_counterexample_twice show the limits."
  },
  {
   "property": "C130",
   "status": "partial",
   "theorems": [
    "LiCan.C130_answered_iff",
    "LiCan.C130_process_data_partial",
    "LiCan.C130_left_iff",
    "LiCan.C130_registered_again",
    "LiCan.C130_hangs",
    "LiCan.C130_still_sent",
    "LiCan.C130_counterexample_stale",
    "LiCan.C130_counterexample_hang",
    "LiCan.C130_counterexample_null"
   ],
   "note": "The desired statement is false (C130_counterexample_stale: frames of modules not registered any more, C130_counterexample_hang, C130_counterexample_null: null pointer dereferenced). Not covered: number and type changes after a further initialization, silent/awake for a row not registered since."
  },
  {
   "property": "C131",
   "status": "partial",
   "theorems": [
    "LiCan.C131_first_use_decides",
    "LiCan.C131_whose",
    "LiCan.C131_right_iff",
    "LiCan.C131_own_data_partial",
    "LiCan.C131_exhausted",
    "LiCan.C131_counterexample_data"
   ],
   "note": "The desired statement is false (C131_counterexample_data). C131_own_data_partial needs the same receive counts in the same order; C131_right_iff says exactly when it holds, for a driver which accepts all definitions, without number and type changes and with enough message objects and table room."
  },
  {
   "property": "C54",
   "status": "partial",
   "theorems": [
    "LiCan.C54_process_request_object_partial",
    "LiCan.C54_counterexample",
    "LiCan.C54_lost_iff",
    "LiCan.C54_kept",
    "LiCan.C54_counterexample_type",
    "LiCan.Stack.C54_whole_stack_partial"
   ],
   "note": "The desired statement is false (C54_counterexample, C54_counterexample_type). C54_lost_iff says exactly when the object is lost (driver accepts all definitions); C54_kept needs no assumption on the driver; C54_whole_stack_partial covers every input of the stack under the rules stated there."
  },
  {
   "property": "C14",
   "status": "partial",
   "theorems": [
    "LiCan.Slave.C14_image",
    "LiCan.Slave.C14_calls",
    "LiCan.Slave.C14_valid_iff_once_partial",
    "LiCan.Slave.C14_objects",
    "LiCan.Slave.C14_counterexample_first_period",
    "LiCan.Slave.C14_counterexample_long_request",
    "LiCan.Slave.C14_counterexample_silent_awake"
   ],
   "note": "C14_valid_iff_once_partial: the statement between two requests, with restrictions; counterexamples beside it. C14_image and C14_calls: exact verdicts, counts and calls in every history without a change of type or number over the bus."
  },
  {
   "property": "C132",
   "status": "partial",
   "theorems": [
    "LiCan.Duo.C132_in_step",
    "LiCan.Duo.C132_main",
    "LiCan.Duo.C132_listens",
    "LiCan.Duo.C132_switch_partial",
    "LiCan.Duo.C132_counterexample",
    "LiCan.Duo.C132_counterexample_unset",
    "LiCan.Duo.C132_counterexample_refused"
   ],
   "note": "C132_switch_partial: the exact commands of a processing during a search; what is missing is silence, which is false (C132_counterexample). Further: the first lcsa_start starts the monitor controller before it has a rate (C132_counterexample_unset); a refusal of the main controller's driver is lost, so the application is told of a successful end of search (C132_counterexample_refused). C132_in_step holds for every driver."
  },
  {
   "property": "C50",
   "status": "partial",
   "theorems": [
    "LiCan.Stack.C50_exact",
    "LiCan.Stack.C50_counterexample_stale",
    "LiCan.Stack.C50_partial",
    "LiCan.Stack.C50_counterexample"
   ],
   "note": "C50_exact: the rate in every history, as a function of the history alone. C50_partial: the desired statement for every search with at least one switch and for a startup without traffic. C50_counterexample: rate 0 reported. C50_counterexample_stale: started again after an online search that ended at 500 kbit/s, a frame is received at 250 kbit/s and the node goes to 500 kbit/s."
  },
  {
   "property": "C36",
   "status": "partial",
   "theorems": [
    "LiCan.Stack.C36_exact",
    "LiCan.Stack.C36_partial",
    "LiCan.Stack.C36_counterexample"
   ],
   "note": "C36_exact: for any two moments of any history. False in its desired form (C36_counterexample: bytes left over by a closed session are sent in the next one); C36_partial: proved from every moment at which nothing is buffered."
  },
  {
   "property": "C42",
   "status": "partial",
   "theorems": [
    "LiCan.Stack.C42_exact",
    "LiCan.Stack.C42_right_iff",
    "LiCan.Stack.C42_counterexample_erased",
    "LiCan.Stack.C42_object_count",
    "LiCan.Stack.C42_counterexample",
    "LiCan.Stack.C42_block_partial"
   ],
   "note": "C42_exact and C42_right_iff: every announced count below 65536. C42_counterexample: a block end announcing more bytes than received is acknowledged. C42_counterexample_erased: 65535 bytes announced for a block of 7, the block and an earlier byte are lost, and it is acknowledged. C42_partial: the desired statement for announced counts up to the received bytes; wrong object count proved separately."
  },
  {
   "property": "C44",
   "status": "partial",
   "theorems": [
    "LiCan.Stack.C44_upload_partial",
    "LiCan.Stack.C44_continued_partial",
    "LiCan.Stack.C44_counterexample",
    "LiCan.Stack.C44_exact",
    "LiCan.Stack.C44_later_block"
   ],
   "note": "C44_exact: any call, whatever was sent before. C44_later_block: after any number of blocks. False for a second block (C44_counterexample). C44_partial: first block and continued uploads from one buffer."
  },
  {
   "property": "C133",
   "status": "partial",
   "theorems": [
    "LiCan.FifoIrq.C133_partial",
    "LiCan.FifoIrq.C133_accounted",
    "LiCan.FifoIrq.C133_refused",
    "LiCan.FifoIrq.C133_bounds",
    "LiCan.FifoIrq.C133_ahead",
    "LiCan.FifoIrq.C133_refused_early",
    "LiCan.FifoIrq.C133_counterexample_twice",
    "LiCan.FifoIrq.C133_counterexample_lost",
    "LiCan.FifoIrq.C133_counterexample_memory"
   ],
   "note": "C133_partial: prefix property, bound and empty flag for every history in which no frame is taken before its write has finished and no interrupt writes during a write. C133_ahead: the first condition is necessary. C133_refused: refusals happen only if frames wait; C133_refused_early: but not only if the FIFO is full. C133_bounds: array bounds. C133_counterexample_twice, _lost, _memory: what happens otherwise. C133_accounted: every write begun is accepted once, refused once or in progress."
  },
  {
   "property": "C134",
   "status": "partial",
   "theorems": [
    "LiCan.Stack.C134_unchecked",
    "LiCan.Stack.C134_return",
    "LiCan.Stack.C134_partial",
    "LiCan.Stack.C134_counterexample"
   ],
   "note": "C134_unchecked, C134_return: exact statement (noninterference of the flag). C134_partial: handlers called without a name. C134_counterexample: blocks acknowledged without a start and after a termination."
  },
  {
   "property": "C135",
   "status": "partial",
   "theorems": [
    "LiCan.Node.C135_steps_on",
    "LiCan.Node.C135_steps_off",
    "LiCan.Node.C135_off_partial",
    "LiCan.Node.C135_on",
    "LiCan.Node.C135_counterexample_stale",
    "LiCan.Node.C135_counterexample_silent",
    "LiCan.Node.C135_counterexample_awake"
   ],
   "note": "C135_steps_on, C135_steps_off: the steps add up to the function of the table model. C135_off_partial: switching off with requests anywhere. C135_on: switching on with requests anywhere, exact description of the wrong frame. C135_counterexample_stale, C135_counterexample_silent, C135_counterexample_awake."
  },
  {
   "property": "C136",
   "status": "partial",
   "theorems": [
    "LiCan.C136_partial",
    "LiCan.C136_one_back",
    "LiCan.C136_counterexample",
    "LiCan.C136_counterexample_cause",
    "LiCan.C136_uninterrupted"
   ],
   "note": "C136_partial: no frame in the window. C136_one_back: in all cases the rate of the frame is the final one or the one before the last change. C136_counterexample, C136_counterexample_cause: ends with 500 because of a frame received at 1000; without the frame the search goes on. C136_uninterrupted: without an interrupt the steps are the functions of the whole stack; an error during a search does nothing."
  },
  {
   "property": "C137",
   "status": "partial",
   "theorems": [
    "LiCan.C137_partial",
    "LiCan.C137_steps",
    "LiCan.C137_bounded",
    "LiCan.C137_compare",
    "LiCan.C137_counterexample_late",
    "LiCan.C137_counterexample_early",
    "LiCan.C137_counterexample_short",
    "LiCan.C137_counterexample_over",
    "LiCan.C137_counterexample_max"
   ],
   "note": "C137_steps: uninterrupted, the steps are the functions of the slave model. C137_partial: exact value if the last request came apart from the calls. C137_bounded, C137_compare: what holds for requests inside the calls. C137_counterexample_late, _early, _short, _over, _max: the five harmful points."
  },
  {
   "property": "C138",
   "status": "partial",
   "theorems": [
    "LiCan.Node.C138_steps",
    "LiCan.Node.C138_partial",
    "LiCan.Node.C138_silent",
    "LiCan.Node.C138_counterexample_mixed",
    "LiCan.Node.C138_counterexample_silent",
    "LiCan.Node.C138_counterexample_hang"
   ],
   "note": "C138_steps: uninterrupted, the steps followed by can_config_set_module_silent_awake are the function of the table model. C138_partial: awake module, exact identifiers and data, termination. C138_silent: silent module. C138_counterexample_mixed, _silent, _hang."
  },
  {
   "property": "C139",
   "status": "partial",
   "theorems": [
    "LiCan.Mon.C139_steps",
    "LiCan.Mon.C139_partial",
    "LiCan.Mon.C139_window",
    "LiCan.Mon.C139_false_alarm",
    "LiCan.Mon.C139_blind",
    "LiCan.Mon.C139_counterexample_alarm",
    "LiCan.Mon.C139_counterexample_twice",
    "LiCan.Mon.C139_frames"
   ],
   "note": "C139_steps: uninterrupted, the pieces are the handler. C139_partial: the harmless places, equality of states. C139_window: forgotten requests. C139_false_alarm: modules not valid. C139_blind, C139_frames: two periods without verdict. C139_counterexample_alarm, C139_counterexample_twice: a reachable device."
  },
  {
   "property": "C140",
   "status": "partial",
   "theorems": [
    "LiCan.BufIrq.C140_steps",
    "LiCan.BufIrq.C140_steps_messages",
    "LiCan.BufIrq.C140_partial",
    "LiCan.BufIrq.C140_exact",
    "LiCan.BufIrq.C140_counterexample_lost",
    "LiCan.BufIrq.C140_counterexample_overwritten",
    "LiCan.BufIrq.C140_counterexample_wrap"
   ],
   "note": "C140_steps: uninterrupted, the steps are getByte of the buffer model. C140_steps_messages: frames and block ends are those of the whole stack. C140_partial: harmless moments. C140_exact: data at any moment, exact number of unreadable bytes. C140_counterexample_lost, _overwritten, _wrap."
  },
  {
   "property": "C141",
   "status": "partial",
   "theorems": [
    "LiCan.TnlIrq.C141_partial",
    "LiCan.TnlIrq.C141_exact",
    "LiCan.TnlIrq.C141_window",
    "LiCan.TnlIrq.C141_window_process",
    "LiCan.TnlIrq.C141_window_shutdown",
    "LiCan.TnlIrq.C141_blocked",
    "LiCan.TnlIrq.C141_steps_messages",
    "LiCan.TnlIrq.C141_steps_shutdown",
    "LiCan.TnlIrq.C141_steps_putc",
    "LiCan.TnlIrq.C141_steps_process",
    "LiCan.TnlIrq.C141_counterexample_stranger",
    "LiCan.TnlIrq.C141_counterexample_partner",
    "LiCan.TnlIrq.C141_counterexample_blocked"
   ],
   "note": "C141_steps_putc, _process, _shutdown: uninterrupted, the steps are the functions of the whole stack. C141_partial: session messages between the calls. C141_exact: at any moment. C141_window, _window_process, _window_shutdown: the harmful moments, in any state. C141_blocked: the tunnel after the shutdown window. C141_counterexample_stranger, _partner, _blocked. C141_steps_messages: the session messages are the handlers of the whole stack."
  },
  {
   "property": "C142",
   "status": "partial",
   "theorems": [
    "LiCan.UlIrq.C142_partial",
    "LiCan.UlIrq.C142_stop",
    "LiCan.UlIrq.C142_safe",
    "LiCan.UlIrq.C142_window_oob",
    "LiCan.UlIrq.C142_skip",
    "LiCan.UlIrq.C142_restart",
    "LiCan.UlIrq.C142_lost",
    "LiCan.UlIrq.C142_steps",
    "LiCan.UlIrq.C142_steps_messages",
    "LiCan.UlIrq.C142_counterexample_oob",
    "LiCan.UlIrq.C142_counterexample_skip",
    "LiCan.UlIrq.C142_counterexample_restart",
    "LiCan.UlIrq.C142_counterexample_stop"
   ],
   "note": "C142_steps: uninterrupted, the steps are the loop of the whole stack. C142_steps_messages: the messages are its handlers. C142_partial: harmless messages. C142_stop: stops change nothing. C142_safe, C142_window_oob: the only moment at which memory outside the data is read. C142_skip, C142_restart, C142_lost: what the other messages do, in any state. C142_counterexample_oob, _skip, _restart, _stop."
  },
  {
   "property": "C143",
   "status": "partial",
   "theorems": [
    "LiCan.InfoMem.C143_crc",
    "LiCan.InfoMem.C143_exact",
    "LiCan.InfoMem.C143_partial",
    "LiCan.InfoMem.C143_setters",
    "LiCan.InfoMem.C143_counterexample"
   ],
   "note": "C143_exact: any call, any checksum. C143_crc: every CRC-16 notices every change of two neighbouring bytes. C143_partial, C143_setters: what follows. C143_counterexample: a mixture of two components is accepted."
  },
  {
   "property": "C144",
   "status": "partial",
   "theorems": [
    "LiCan.Ending.C144_steps",
    "LiCan.Ending.C144_frame_iff",
    "LiCan.Ending.C144_silent_partial",
    "LiCan.Ending.C144_counterexample"
   ],
   "note": "C144_steps: the steps together are the function of the other models. C144_frame_iff: exactly which frames are ignored. C144_silent_partial: no effect of frames outside the window. C144_counterexample: an answer before the application is told."
  },
  {
   "property": "C145",
   "status": "partial",
   "theorems": [
    "LiCan.FlowIrq.C145_exact",
    "LiCan.FlowIrq.C145_window",
    "LiCan.FlowIrq.C145_call",
    "LiCan.FlowIrq.C145_partial",
    "LiCan.FlowIrq.C145_steps",
    "LiCan.FlowIrq.C145_counterexample"
   ],
   "note": "C145_exact: partner and module of every message, and when WRONG_STATE is returned. C145_window: all outcomes of a close and of a new session in the window. C145_call: a call as a whole. C145_steps: uninterrupted, it is xonOff of the whole stack. C145_partial: the claim for messages between the calls. C145_counterexample: mixed numbers."
  },
  {
   "property": "C146",
   "status": "partial",
   "theorems": [
    "LiCan.Stack.C146_image",
    "LiCan.Stack.C146_period",
    "LiCan.Stack.C146_partial",
    "LiCan.Stack.C146_frozen",
    "LiCan.Stack.C146_counterexample_mixed",
    "LiCan.Stack.C146_counterexample_lost"
   ],
   "note": "C146_image: every verdict in every history. C146_period: one period, with searches in it. C146_frozen: nothing changes during a search. C146_partial: the claim without a search between the requests. C146_counterexample_mixed, C146_counterexample_lost: both directions fail with a search."
  },
  {
   "property": "C147",
   "status": "partial",
   "theorems": [
    "LiCan.MonAd.C147_exact",
    "LiCan.MonAd.C147_search_kept",
    "LiCan.MonAd.C147_both_partial",
    "LiCan.MonAd.C147_balanced",
    "LiCan.MonAd.C147_counterexample_boundary",
    "LiCan.MonAd.C147_counterexample_extended"
   ],
   "note": "C147_exact: refinement to the slave of C75 to C82 on the frames passed. C147_both_partial: same state and same side of the limit. C147_balanced: over whole histories as many frames of each identifier from both controllers. C147_search_kept: the receive functions change no variable of the search but the flag. C147_counterexample_boundary, C147_counterexample_extended: module found not valid."
  },
  {
   "property": "C148",
   "status": "partial",
   "theorems": [
    "LiCan.CtrlQ.C148_partial",
    "LiCan.CtrlQ.C148_atomic",
    "LiCan.CtrlQ.C148_accepted_iff",
    "LiCan.CtrlQ.C148_dropped_harmless",
    "LiCan.CtrlQ.C148_counterexample_lost"
   ],
   "note": "C148_partial: order, bound, wake-ups and counter without a message in the window. C148_atomic: nothing needed if the counter is changed with interrupts off. C148_accepted_iff: the writer exactly, any state. C148_dropped_harmless: what is dropped would do nothing. C148_counterexample_lost: message lost and order changed. The reader belongs to the port; its steps are an assumption stated in Model/CtrlQueue."
  },
  {
   "property": "C149",
   "status": "partial",
   "theorems": [
    "LiCan.Stack.C149_search",
    "LiCan.Stack.C149_exact",
    "LiCan.Stack.C149_start",
    "LiCan.Stack.C149_history_partial",
    "LiCan.Stack.C149_others",
    "LiCan.Stack.C149_plain_partial",
    "LiCan.Stack.C149_nosearch_partial",
    "LiCan.Stack.C149_counterexample_first",
    "LiCan.Stack.C149_counterexample_command",
    "LiCan.Stack.C149_counterexample_traffic"
   ],
   "note": "C149_search, C149_start: exactly when a rate is told, and that the controller has it. C149_exact: the rate told is the one the application gets (C50). C149_history_partial: the rate told last is the rate of the controller in whole histories (not after a rate command of the master: nothing is told then). C149_others: which other inputs change the rate of the controller. C149_plain_partial: the history theorem with these inputs named. C149_nosearch_partial: what is told without search, right just if the current rate is the startup rate already. C149_counterexample_first: rate 0 told at the first start. C149_counterexample_traffic: rate 0 told at a power-on with traffic. C149_counterexample_command: after a rate command of the master the rate told last is the old one."
  },
  {
   "property": "C150",
   "status": "partial",
   "theorems": [
    "LiCan.C150_history",
    "LiCan.C150_type_partial",
    "LiCan.C150_counterexample_type",
    "LiCan.C150_counterexample_second"
   ],
   "note": "C150_history: configurations and functions called after every history. C150_type_partial: the function of the type, as long as no type is changed. C150_counterexample_type: after a type change the function of the old type is called for the new one. C150_counterexample_second: the second module of a type is reached by no setting and no call."
  }
 ]
}
