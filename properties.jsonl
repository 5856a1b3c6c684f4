{"id": "C01", "title": "CAN identifiers of different services, modules and objects never coincide", "statement": "For module numbers 1..128 the identifiers the stack uses for synchronous transmit objects, synchronous receive objects, system messages from/to the slave and asynchronous control/data in both directions are all 11-bit identifiers, and two of them are equal only if service, module number and object number are all equal. Outside that number range the claim fails: a concrete module number makes a synchronous transmit identifier equal to an asynchronous control identifier.", "quantifier": "all services, all module numbers 1..128, all object numbers 0..3, all pairs of them", "why_tests_cant": "the pairs are too many to enumerate in unit tests and the tests use a handful of module numbers", "anchors": ["include/li_can_slv/config/li_can_slv_config_defines.h", "source/core/io_can_main.c:can_main_sync_process_tx_data_cnfg", "source/config/io_can_config.c:can_config_set_module"]}
{"id": "C02", "title": "Receiving side recovers module number and object from an identifier", "statement": "For every identifier the stack assigns to a module (synchronous receive, system request, asynchronous control request) the receive path recovers exactly the module number and object number it was built from.", "quantifier": "all module numbers 1..128, all objects 0..3", "why_tests_cant": "round trip over the entire identifier space, three different decoders", "anchors": ["source/sync/io_can_sync_handler.c:can_sync_handler_rx", "source/async/io_can_async_handler.c:can_async_handler_rx", "source/sync/io_can_sync.c:can_sync_rx_data_main"]}
{"id": "C03", "title": "Acceptance filter for system and asynchronous data messages covers every registered module and the broadcast", "statement": "After any sequence of registered module numbers, the filter programmed for system messages (and the one for asynchronous data) accepts the identifier of a message addressed to any registered module and to the broadcast number; it accepts an identifier exactly if its service bits match and its number bits are a subset of the union of the registered numbers' bits.", "quantifier": "all lists of module numbers of any length, all 11-bit identifiers", "why_tests_cant": "mask is a fold over the module list; unit tests only see single fixed lists", "anchors": ["source/config/io_can_config.c:can_config_set_module", "source/config/io_can_config.c:li_can_slv_config_change_module_nr_and_identifiers"]}
{"id": "C04", "title": "Registered modules have pairwise different module numbers", "statement": "After initialisation and any sequence of lcsa_add_module calls (any numbers, duplicates, out-of-range numbers, failing hardware) no two registered modules have the same module number; a number outside 2..124 or already in use is replaced by the row's default number, and a duplicate is reported as REDECLARED_MODULE_NR.", "quantifier": "all sequences of add calls, all module tables, any capacity 1..8", "why_tests_cant": "needs an invariant over all call histories", "anchors": ["source/config/io_can_config.c:can_config_add_module", "source/config/io_can_config.c:can_config_set_module"]}
{"id": "C05", "title": "Module table capacity is respected", "statement": "Registering more modules than configured returns MAXIMUM_NR_OF_MODULE_TYPE and changes nothing; before that, every registration uses the first free row and leaves all other rows untouched.", "quantifier": "all histories of add calls, any capacity", "why_tests_cant": "frame condition over whole state for all histories", "anchors": ["source/config/io_can_config.c:can_config_add_module"]}
{"id": "C07", "title": "A hardware message object is never assigned twice", "statement": "Across any sequence of module registrations, the message objects assigned to synchronous receive objects and asynchronous control objects of all modules are pairwise different and different from the fixed objects reserved at initialisation.", "quantifier": "all sequences of registrations, any number of message objects", "why_tests_cant": "history invariant of an allocator", "anchors": ["source/arch/canpie_adapter/io_can_main_hw.c:can_main_hw_get_next_free_msg_obj", "source/arch/canpie_adapter/io_can_main_hw.c:can_main_hw_define_msg_obj", "source/core/io_can_main.c:can_main_get_next_free_msg_obj"]}
{"id": "C08", "title": "A received synchronous frame is delivered to the module owning the message object", "statement": "After any sequence of registrations, a frame received in a message object assigned to a synchronous receive object of a module is attributed to that module's row; a message object not assigned to any module is reported as WRONG_SLOT.", "quantifier": "all registration histories, all message objects", "why_tests_cant": "lookup-table correctness for all histories", "anchors": ["include/li_can_slv/arch/io_can_main_hw_inline.h:can_main_synchron_rx", "source/core/io_can_main.c:can_main_msg_obj_rx_data_cnfg"]}
{"id": "C09", "title": "A process request transmits exactly the process data of the active modules, in order", "statement": "After any sequence of registrations and silent/awake/critical/active changes, answering a process request hands to the CAN driver exactly one frame for every transmit object of every module that is currently active, none for others, ordered by row then object, each with the identifier of the module's number and the configured length.", "quantifier": "all histories, any number of modules up to the configured maximum", "why_tests_cant": "bit-register bookkeeping over all histories", "anchors": ["source/core/io_can_main.c:can_main_sync_send_process_data", "source/core/io_can_main.c:can_main_synchron_tx_data_on", "source/core/io_can_main.c:can_main_synchron_tx_data_off"]}
{"id": "C10", "title": "Answering a process request always terminates", "statement": "The transmission loop run for a process request terminates. False after a module number change: a concrete two-module history makes it loop forever. Proved for every history of registrations and silent/awake/critical/active changes, and characterised exactly: the loop diverges iff an unset position is reached beyond the recorded end with bits left.", "quantifier": "all register contents and histories", "why_tests_cant": "non-termination cannot be observed by a finite test; depends on history", "anchors": ["source/core/io_can_main.c:can_main_sync_send_process_data", "source/core/io_can_main.c:can_main_sync_process_tx_data_cnfg", "source/config/io_can_config.c:li_can_slv_config_change_module_nr_and_identifiers"]}
{"id": "C11", "title": "A silent module does not transmit process data", "statement": "While a module is SILENT, no process-data frame of it is handed to the driver. Proved for all histories of registrations and silent/awake/critical requests; false in general: set_active on a silent module, and a module number change that fails half-way for lack of message objects, re-enable transmission of a silent module (both shown by concrete histories).", "quantifier": "all histories", "why_tests_cant": "safety invariant over histories", "anchors": ["source/config/io_can_config.c:can_config_set_module_silent_awake", "source/config/io_can_config.c:can_config_sync_off", "source/config/io_can_config.c:can_config_set_active"]}
{"id": "C12", "title": "A silent module never answers system requests", "statement": "Any answer (status, version, error) on behalf of a module number is handed to the driver only if a row with that number exists and is AWAKE, and then with the identifier of that number and length 8.", "quantifier": "all states, all payloads", "why_tests_cant": "for all states/commands", "anchors": ["source/core/io_can_main.c:can_main_send_queue_system_tx", "source/sys/io_can_sys.c:can_sys_msg_rx"]}
{"id": "C13", "title": "Critical modules stay out of the process image", "statement": "After lcsa_set_module_critical for a module, no process data of it is transmitted nor required for the process image until an explicit set_active / awake / number change of that module. The documented 'no way back' is false: an AWAKE request re-enables it (concrete history).", "quantifier": "all histories after the call", "why_tests_cant": "history property", "anchors": ["source/config/io_can_config.c:can_config_set_critical", "source/config/io_can_config.c:can_config_sync_on"]}
{"id": "C15", "title": "Only well-addressed frames with matching length change application data", "statement": "A synchronous data frame changes only the application object of the module row and object number encoded in its identifier, and only if identifier number and data length match the configuration; every other frame leaves application data and receive counters untouched (the internal function returns an error code naming the mismatch, which its caller discards).", "quantifier": "all frames, all states", "why_tests_cant": "frame condition over all states and inputs", "anchors": ["source/sync/io_can_sync.c:can_sync_rx_data_main"]}
{"id": "C16", "title": "Transmitted process data is a consistent snapshot", "statement": "The bytes of a transmitted process-data object are the conversion of application bytes that were all simultaneously present at one moment, no matter how interrupts updating the application data interleave with the copy.", "quantifier": "all interleavings of copy steps and interrupting writes", "why_tests_cant": "concurrency: schedules cannot be enumerated by tests", "anchors": ["source/sync/io_can_sync.c:can_sync_tx_data_main"]}
{"id": "C17", "title": "Process period and cycle time stay within their maximum", "statement": "After any history of requests, cycle time configurations and period triggers, the cycle time never exceeds 100 ms; a configuration above it is answered with an error and clamped; the reported process period never exceeds 100.", "quantifier": "all histories and tick values incl. counter wraparound", "why_tests_cant": "invariant over histories and 32-bit wraparound", "anchors": ["source/sync/io_can_sync.c:li_can_slv_sync_set_process_cycle_time", "source/sync/io_can_sync.c:li_can_slv_sync_get_process_periode", "source/sync/io_can_sync.c:li_can_slv_sync_trigger_process_periode"]}
{"id": "C18", "title": "One-shot notifications fire exactly once", "statement": "A function registered for the first process request is called exactly once if it is the one registered when the first process request after power-on arrives, and otherwise never: a registration after that event is lost, even after a new initialisation. A function registered for the first status request is called at most once until the next initialisation, and the first status request that reaches a module calls it.", "quantifier": "all event sequences", "why_tests_cant": "at-most-once over unbounded histories", "anchors": ["source/sync/io_can_sync.c:can_sync_process_request_rx", "source/sys/io_can_sys.c:can_sys_msg_rx"]}
{"id": "C19", "title": "Error queue is FIFO without loss", "statement": "As long as the queue never fills up, errors are retrieved in exactly the order and with exactly the contents they were reported, for any interleaving of reports and retrievals.", "quantifier": "all interleavings of report/get operations, any queue size", "why_tests_cant": "refinement over unbounded histories", "anchors": ["source/error/io_can_error.c:can_error_sys_error_send_full", "source/error/io_can_error.c:can_error_sys_error_get_full"]}
{"id": "C20", "title": "Error queue never touches memory outside its buffer", "statement": "Every access of the error queue is inside its buffer. False: after filling the queue, retrieving two entries and reporting again, the write index equals the queue size and the next write is out of bounds (concrete history); proved for all histories in which the queue never becomes completely full, and the exact set of states from which it happens is characterised.", "quantifier": "all operation histories, any queue size", "why_tests_cant": "needs the specific history; index invariant", "anchors": ["source/error/io_can_error.c:can_error_sys_error_send_full"]}
{"id": "C21", "title": "Queue overflow is reported and does not corrupt stored errors", "statement": "A report into a queue with exactly two free slots stores the error and a QUEUE_FULL marker and returns QUEUE_FULL; a report into a queue with fewer free slots returns QUEUE_FULL and changes nothing; the count never exceeds the queue size.", "quantifier": "all states satisfying the queue invariant, all reports", "why_tests_cant": "boundary behaviour for every size", "anchors": ["source/error/io_can_error.c:can_error_sys_error_send_full"]}
{"id": "C22", "title": "Error numbers survive the compact 16-bit encoding", "statement": "Expanding a 16-bit error number to a message code and extracting group, subgroup and code gives back the CAN group, the subgroup nibble and the low 12 bits; distinct error numbers give distinct codes.", "quantifier": "all 2^16 error numbers", "why_tests_cant": "whole domain", "anchors": ["include/li_can_slv/error/io_can_errno.h:MSG_SG_EXPAND", "source/error/io_can_error.c:error_syserr_send"]}
{"id": "C23", "title": "System message length and addressing rules", "statement": "A system message whose length is not 8 is answered with INVALID_SYS_MSG_DLC and has no other effect; a message to a number which no table row has is ignored with OK and no effect; a broadcast with no registered modules reports MODULE_NOT_FOUND; baud rate change is refused when addressed directly; number/silent/awake/type commands are refused as broadcast; unknown commands report SYS_UNKNOWN_COMMAND; refused messages transmit nothing and change nothing.", "quantifier": "all states, all payloads, all addressed numbers", "why_tests_cant": "whole input space with frame condition", "anchors": ["source/sys/io_can_sys.c:can_sys_msg_rx"]}
{"id": "C24", "title": "Serial-number protected commands require the full serial number", "statement": "Module number change, stay-silent and awake commands take effect only if the 24-bit serial in the message equals the device serial; consequently a device with serial >= 2^24 never obeys them.", "quantifier": "all states, all payloads, all serial numbers", "why_tests_cant": "whole input space", "anchors": ["source/sys/io_can_sys.c:can_sys_msg_rx", "source/sys/io_can_sys.c:can_sys_set_silent_awake"]}
{"id": "C25", "title": "Status answer carries type and serial", "statement": "The status acknowledge of a module decodes to its four type characters and the low 24 bits of the serial number; a broadcast status request yields exactly one answer per awake registered module, in table order.", "quantifier": "all modules, serials, states", "why_tests_cant": "round trip over the whole domain and all table contents", "anchors": ["source/sys/io_can_sys.c:can_sys_status_ackn", "source/sys/io_can_sys.c:can_sys_status_ackn_send"]}
{"id": "C26", "title": "Version, error and time messages are byte-exact round trips", "statement": "Decoding the documented byte layout of version acknowledges and error messages gives back the values they were built from, and the system time handed to the callback is the big-endian value, signed zone and DST flag in the message.", "quantifier": "all 32-bit/16-bit/8-bit field values", "why_tests_cant": "whole domains", "anchors": ["source/sys/io_can_sys.c:can_sys_send_error_full", "source/sys/io_can_sys.c:can_sys_version_ackn_send_version1", "source/sys/io_can_sys.c:can_sys_version_ackn_send_version2"]}
{"id": "C27", "title": "A status request empties the error queue and reports every queued error once, in order", "statement": "Handling a status request terminates, leaves the error queue empty and hands to the driver one error message per queued error, in FIFO order, on behalf of the module that reported it. False for errors of modules which are silent or no longer in the table: they are removed without being sent.", "quantifier": "all queue contents and states", "why_tests_cant": "loop over unbounded queue", "anchors": ["source/sys/io_can_sys.c:can_sys_msg_rx", "source/error/io_can_error.c:can_error_sys_error_get_full"]}
{"id": "C28", "title": "Module number change obeys the voter", "statement": "With a voter registered, a number change takes place only if the voter answers VALID or VALID_BUT_SET_SILENT; the module is then awake resp. silent; on any other answer nothing changes and CHANGING_TO_INVALID_MODULE_NR is returned; without voter it always takes place.", "quantifier": "all states, numbers and voter functions", "why_tests_cant": "higher-order quantification over voters", "anchors": ["source/config/io_can_config.c:can_config_change_module_nr"]}
{"id": "C29", "title": "Changing the number of an unknown module is rejected", "statement": "Requesting a number change for a (type, number) pair that is not registered must change nothing. False: the lookup result is not checked and the write goes behind the module table (concrete call); proved: for registered pairs only that row changes.", "quantifier": "all states, types and numbers", "why_tests_cant": "out-of-bounds write invisible to tests; all inputs", "anchors": ["source/config/io_can_config.c:li_can_slv_config_change_module_nr_and_identifiers", "source/config/io_can_config.c:get_table_pos_from_type_and_actual_module_number"]}
{"id": "C30", "title": "Unsupported baud rates are rejected", "statement": "Setting a baud rate outside {125,250,500,1000} returns SET_INVALID_BAUDRATE. False: OK is returned. Proved: it changes nothing; a supported rate is programmed and stored iff the node is initialising or stopped; in all histories the reported, programmed and stored rates are none or one of the four. A refused rate is still reported as the current one.", "quantifier": "all rates, all histories", "why_tests_cant": "whole domain + history invariant", "anchors": ["source/config/io_can_config.c:can_config_set_baudrate", "source/arch/canpie_adapter/io_can_main_hw.c:can_main_hw_set_baudrate"]}
{"id": "C31", "title": "Baud rate change message restores the node mode", "statement": "After a baud rate change message the node mode is the one before the message and a supported rate is in use, except if the driver refused to stop: then an error is returned, no rate changes, and the reported mode is stopped although the driver is still running.", "quantifier": "all states, all rates, all driver responses", "why_tests_cant": "all driver behaviours", "anchors": ["source/sys/io_can_sys.c:can_sys_msg_rx"]}
{"id": "C32", "title": "Asynchronous data transmit queue is a bounded FIFO without loss", "statement": "Frames accepted for asynchronous transmission are sent in order, exactly once; a frame is refused iff four are pending or its length exceeds 8; a failed send keeps the frame at the head.", "quantifier": "all interleavings of enqueue and send attempts with arbitrary driver results", "why_tests_cant": "refinement over unbounded histories", "anchors": ["source/async/io_can_async.c:can_async_send_data_to_async_data_tx_queue", "source/async/io_can_async.c:can_async_handle_async_data_tx_queue"]}
{"id": "C33", "title": "At most one tunnel session", "statement": "While a tunnel session is active or shutting down an open request is denied with ALREADY_USED and does not disturb the session.", "quantifier": "all states and requests", "why_tests_cant": "all states", "anchors": ["source/async/io_can_async.c:can_async_rx"]}
{"id": "C34", "title": "A denied tunnel open leaves the tunnel free", "statement": "If an open request is answered by a deny, no session is left. False for an unknown connection type without a registered handler (concrete case); proved for the other deny paths.", "quantifier": "all states and requests", "why_tests_cant": "all states", "anchors": ["source/async/io_can_async.c:can_async_rx"]}
{"id": "C35", "title": "Tunnel byte stream integrity", "statement": "The concatenation of the payloads of the data frames produced by the tunnel plus the bytes still buffered equals the sequence of bytes written, in order; every frame before a flush carries exactly 8 bytes.", "quantifier": "all byte sequences and interleavings of writes, flushes and queue drains", "why_tests_cant": "unbounded sequences", "anchors": ["source/async/io_can_async.c:can_async_tunnel_putc", "source/async/io_can_async.c:can_async_tunnel_process_tx_data"]}
{"id": "C37", "title": "Asynchronous requests to unknown or silent modules are ignored", "statement": "An asynchronous control message to a number that is not in the table or whose row is silent has no effect and transmits nothing.", "quantifier": "all states and payloads", "why_tests_cant": "whole input space", "anchors": ["source/async/io_can_async.c:can_async_rx"]}
{"id": "C38", "title": "Transfer buffer is a bounded FIFO", "statement": "The transfer buffer behaves as a bounded FIFO queue of bytes for any interleaving of add, get, add-string, remove and length operations; overflow and underflow are reported and change nothing.", "quantifier": "all operation sequences, any buffer size", "why_tests_cant": "refinement over unbounded histories", "anchors": ["source/xload/li_can_slv_xload_buffer.c:dload_add_byte_to_buffer", "source/xload/li_can_slv_xload_buffer.c:xload_buffer_get_byte", "source/xload/li_can_slv_xload_buffer.c:dload_add_str_to_buffer", "source/xload/li_can_slv_xload_buffer.c:dload_remove_bytes", "source/xload/li_can_slv_xload_buffer.c:xload_buffer_get_len"]}
{"id": "C39", "title": "Transfer buffer store/restore rewinds reading", "statement": "After storing the state, reading any number of bytes and restoring, the same bytes are read again.", "quantifier": "all buffer states and numbers of reads (without adds in between)", "why_tests_cant": "all states", "anchors": ["source/xload/li_can_slv_xload_buffer.c:dload_store_buf_state", "source/xload/li_can_slv_xload_buffer.c:dload_restore_buf_state"]}
{"id": "C40", "title": "Hexadecimal field extraction inverts hexadecimal encoding", "statement": "If the oldest bytes waiting in the transfer buffer are the hexadecimal text of a value (any mix of upper and lower case), reading a hexadecimal field returns exactly that value and consumes exactly that text: two characters for the 8- and 16-bit readers, four for the 32-bit reader.", "quantifier": "all values below 2^8 (2^16 for the four character reader), all buffer sizes, contents and wrap positions", "why_tests_cant": "whole domain x buffer wrap positions", "anchors": ["source/xload/li_can_slv_xload_buffer.c:dload_get_str_byte", "source/xload/li_can_slv_xload_buffer.c:dload_get_str_uint16", "source/xload/li_can_slv_xload_buffer.c:dload_get_str_uint32", "source/xload/li_can_slv_xload_buffer.c:dload_hexchar_to_uint32_internal"]}
{"id": "C41", "title": "Short component names are decoded faithfully", "statement": "The 8-character component name unpacked from a short version/info request is the name that was packed, for all names over the 64-character set 0x20..0x5F.", "quantifier": "all names of 8 six-bit characters", "why_tests_cant": "2^48 inputs", "anchors": ["source/xload/li_can_slv_xload.c:li_can_slv_dload_version_request_short"]}
{"id": "C43", "title": "A running download cannot be disturbed by another start request", "statement": "A start request while a transfer is in progress is refused with DLOAD_IN_PROGRESS and the running transfer continues. The second half is false: the refusal resets the transfer state to idle (concrete history). Exact: the refused request removes only the name of the component and the mark of a transfer in progress; the following blocks are still handed to the application and acknowledged, without the name.", "quantifier": "all states", "why_tests_cant": "state machine over histories", "anchors": ["source/xload/li_can_slv_xload.c:li_can_slv_dload_start_request2", "source/xload/li_can_slv_xload.c:li_can_slv_dload_termination"]}
{"id": "C45", "title": "Termination always releases the transfer and reports the error", "statement": "Whenever a transfer is terminated the state is idle, the component name cleared and exactly one termination message carrying the error code is sent.", "quantifier": "all states and error codes", "why_tests_cant": "all states", "anchors": ["source/xload/li_can_slv_xload.c:li_can_slv_dload_termination"]}
{"id": "C46", "title": "Persistent transfer info is always CRC-consistent", "statement": "After initialisation and any sequence of setter calls the stored info passes its CRC check, and initialisation with corrupted memory resets it to defaults and reports BAD_CRC, for any checksum function.", "quantifier": "all initial memory contents, all call sequences, any CRC function", "why_tests_cant": "arbitrary corruption and unbounded histories", "anchors": ["source/xload/li_can_slv_xload_info.c:li_can_slv_xload_info_init", "source/xload/li_can_slv_xload_info.c:li_can_slv_xload_info_set_mode"]}
{"id": "C47", "title": "Application callbacks/handlers are set once", "statement": "A download/upload handler, system-time or factory-reset callback can be registered once; later registrations are refused and the first remains in force.", "quantifier": "all registration sequences", "why_tests_cant": "history property", "anchors": ["source/xload/li_can_slv_xload.c:li_can_slv_dload_set_start_handle", "source/sys/io_can_sys.c:can_sys_set_system_time_cbk"]}
{"id": "C48", "title": "Reconnect never transmits while searching", "statement": "From the moment a reconnect search is started until it finishes, the node is either stopped or listen-only.", "quantifier": "all histories of bus events and time steps", "why_tests_cant": "unbounded histories", "anchors": ["source/core/io_can_reconnect.c:li_can_slv_reconnect_process", "source/core/io_can_reconnect.c:can_reconnect_next_baudrate"]}
{"id": "C49", "title": "Reconnect tries all four baud rates cyclically", "statement": "While searching, successive rates follow the cyclic table order 125, 1000, 500, 250; any four consecutive switches visit all four rates and the index never leaves the table.", "quantifier": "all histories", "why_tests_cant": "liveness/invariant over unbounded histories", "anchors": ["source/core/io_can_reconnect.c:can_reconnect_next_baudrate"]}
{"id": "C51", "title": "Random acknowledge delay is bounded", "statement": "The pseudo random delay used for status acknowledges is always below 104 and a multiple of 8, so only 13 different delays occur.", "quantifier": "all generator states", "why_tests_cant": "2^32 states", "anchors": ["source/sys/io_can_sys.c:li_can_slv_rand"]}
{"id": "C55", "title": "Initialisation starts clean", "statement": "After lcsa_init no module is registered, nothing is transmitted on a process request, no message object is attributed to a module and exactly the reserved message objects are in use. Proved for the first initialisation; false for a second one: the frames of the earlier modules are still transmitted (concrete history). Exact: an initialisation of a used node clears the names and the number of the modules and the message objects; a process request then transmits exactly what it would have transmitted without it.", "quantifier": "all configurations, all previous histories", "why_tests_cant": "depends on arbitrary earlier use", "anchors": ["source/config/io_can_config.c:can_config_init", "source/arch/canpie_adapter/io_can_main_hw.c:can_main_hw_init", "source/core/io_can.c:li_can_slv_init"]}
{"id": "C56", "title": "Loss of process requests becomes visible in the reported period", "statement": "If no process request arrived for the maximum period (100 ms) and the cyclic task ran after that, the reported process period is the maximum until the next request, whatever else happens; and the cyclic task never makes the period longer than the time since the last request. Holds if the maximum period is below 65536 clock ticks; false for faster clocks (a 16-bit variable truncates the limit, concrete case with a microsecond clock). Exact: the reported period is the longest wait seen by lcsa_process, measured with the maximum cut to 16 bits of ticks; the loss is reported at all if and only if the cut maximum is still the maximum.", "quantifier": "all histories, all clock readings incl. wrap-around, all tick conversions", "why_tests_cant": "tests use one tick rate (1 ms); the truncation depends on the port's tick conversion and on the interleaving of requests and triggers", "anchors": ["source/sync/io_can_sync.c:li_can_slv_sync_trigger_process_periode", "source/sync/io_can_sync.c:li_can_slv_sync_get_process_periode"]}
{"id": "C57", "title": "A download delivers the file", "statement": "For every file split into blocks (each a number of data messages of seven bytes that fits the receive buffer, the block end announcing how many of these bytes count), the frames of the download on the addressed module make the registered block handler read exactly the announced bytes of each block, in order and without any byte of another block, and each block is acknowledged exactly once on the module's control identifier.", "quantifier": "all files, block and segment sizes, buffer sizes, module numbers, handlers that read their block, driver results", "why_tests_cant": "tests download one fixed file; sizes, splits and module numbers are unbounded", "anchors": ["source/xload/li_can_slv_xload.c:li_can_slv_dload_data", "source/xload/li_can_slv_xload.c:li_can_slv_dload_data_block_end"]}
{"id": "C59", "title": "Waiting asynchronous data frames go out once the driver accepts again", "statement": "A frame waiting in the asynchronous data transmit queue is transmitted once the driver accepts frames again. False: as soon as four frames wait, no call, received frame or passing of time ever empties the queue, whatever the driver does; every further frame is refused and a tunnel write that waits for room never returns. Proved for fewer than four waiting frames: every further accepted frame moves the queue on by one.", "quantifier": "all histories after the queue became full, all driver results; all sequences of further frames", "why_tests_cant": "absence of progress over all continuations", "anchors": ["source/async/io_can_async.c:can_async_send_data_to_async_data_tx_queue", "source/core/io_can_main_handler.c:can_main_handler_tx", "source/async/io_can_async.c:can_async_tunnel_putc"]}
{"id": "C60", "title": "Tunnel control messages act only for the partner of the session", "statement": "A tunnel control message (XON, XOFF, close, acknowledge or denial of a close, reset) has an effect only if it names the partner of the running session. False: any module can close or reset the session of another one (concrete history). Proved for XON, XOFF and for the acknowledge and the denial of a close. Exact for close and reset: the port decides alone; who sends the request, and whether there is a session, does not matter.", "quantifier": "all states, payloads and modules", "why_tests_cant": "all states and senders", "anchors": ["source/async/io_can_async.c:can_async_rx"]}
{"id": "C61", "title": "Received tunnel data reach the port only in a session", "statement": "The payload of an asynchronous data frame is handed to the tunnel port only while a session is active. False: it is handed over before any session and after the close (concrete histories). Proved: a payload received in the data object, and no other, is handed over exactly once and unchanged, cut to the frame length.", "quantifier": "all states, objects and payloads", "why_tests_cant": "all states", "anchors": ["source/async/io_can_async_handler.c:can_async_handler_data_rx"]}
{"id": "C62", "title": "A partly filled tunnel object is sent after the waiting time", "statement": "A partly filled tunnel object is transmitted after 50 ms without new data and not before. 'Not before' is false: the code compares the number of buffered bytes plus 50 ms with the absolute tick, so a byte written at tick 1000 is sent at tick 1001 (concrete history). Proved: whenever the tick is beyond that value and there is room, the object is handed over with all its bytes. Exact: an object is handed over if and only if the absolute tick is beyond the number of its bytes plus 50 ms; the bytes rest for 50 ms only if they are written at a tick not beyond their number.", "quantifier": "all histories and tick values", "why_tests_cant": "depends on the absolute value of the tick counter", "anchors": ["source/async/io_can_async.c:can_async_tunnel_process_tx_data"]}
{"id": "C63", "title": "Nothing is transmitted during a search", "statement": "While a baud rate search is running no frame is handed to the driver. False: only the listening part of an online search is checked before the transmit queue is emptied, so frames are handed to the driver in a startup search and while the search waits. Proved: a frame received during a search is only noted, it is not answered and changes no data; in the listening part the queue sends nothing. Exact: in a startup search and while the search waits the queue behaves in every respect as if there were no search.", "quantifier": "all histories", "why_tests_cant": "depends on which calls fall into which phase of the search", "anchors": ["source/core/io_can_main_handler.c:can_main_handler_tx", "source/arch/canpie_adapter/io_can_main_hw_handler.c:can_main_hw_handler_rx"]}
{"id": "C64", "title": "A search ends only at a rate that was seen to work", "statement": "A search ends with a rate only if a frame was received at that rate since it was set (or at startup if there is no traffic at all, with the startup rate). False at startup if last errors are checked: one error switches to the next rate, and no error there makes the node operational at a rate at which nothing was ever received. Proved for online searches, up to ten bit 0 errors.", "quantifier": "all histories", "why_tests_cant": "depends on the interleaving of received frames, errors and processing over an unbounded search", "anchors": ["source/core/io_can_reconnect.c:li_can_slv_reconnect_process", "source/arch/canpie_adapter/io_can_main_hw_handler.c:can_main_hw_handler_rx"]}
{"id": "C65", "title": "Startup without traffic ends in time at the startup rate", "statement": "If nothing happens on the bus after lcsa_start, the search goes on for the startup time and the first lcsa_process after it makes the node operational at the startup rate and reports that rate. False if the 32 bit tick counter wraps within the startup time: the search ends at once, and if the startup time ends exactly at the last tick before the wrap it never ends on a quiet bus.", "quantifier": "all start times and all sequences of calls", "why_tests_cant": "tick counter wraps after days", "anchors": ["source/core/io_can_reconnect.c:li_can_slv_reconnect_startup", "source/core/io_can_reconnect.c:li_can_slv_reconnect_process"]}
{"id": "C66", "title": "Version and upload info requests are answered with what the application said", "statement": "A short or long version request for a registered, awake module is answered with one frame that carries the index of the request and the checksum and identifier the application's version handler left in the component; an upload info request with the index and the size the application gave.", "quantifier": "all reachable stacks, all names, indices, checksums, identifiers and sizes, all handlers", "why_tests_cant": "the answers depend on values chosen by the application and the master; a swapped byte shows only for some of them", "anchors": ["source/xload/li_can_slv_xload.c:li_can_slv_dload_version_answer", "source/xload/li_can_slv_xload.c:li_can_slv_uload_info_answer"]}
{"id": "C67", "title": "An announced download block fits into the transfer buffer", "statement": "The number of bytes per block announced in the start acknowledge is never larger than the transfer buffer can hold, so a master which keeps to it cannot overflow the buffer.", "quantifier": "all buffer sizes and all block sizes", "why_tests_cant": "depends on the configured buffer size and the values of the application", "anchors": ["source/xload/li_can_slv_xload.c:li_can_slv_dload_start", "source/xload/li_can_slv_xload.c:li_can_slv_dload_start_ackn"]}
{"id": "C68", "title": "A granted tunnel session listens to its partner only", "statement": "After a granted tunnel open the asynchronous data receive object accepts exactly the data identifier of the own module, so data sent to other modules do not enter the tunnel. False if the driver refuses the definition: the session is granted all the same and the object still has its old, wider filter. Proved for a driver that accepts, and that a refusal leaves the old filter.", "quantifier": "all reachable stacks, all partners and modules", "why_tests_cant": "depends on the filter programmed into hardware and on the driver", "anchors": ["source/async/io_can_async.c:can_async_rx", "source/arch/canpie_adapter/io_can_main_hw.c:can_main_hw_define_msg_obj"]}
{"id": "C69", "title": "A start request hands the announced component to the application and occupies the transfer", "statement": "While no transfer runs, the two messages of a download or upload start request lead to exactly one call of the application's start handler, with exactly the eight name characters, checksum and identifier sent and the module addressed. If the handler accepts, nothing is sent and the transfer is occupied; for uploads block size and delay are those requested.", "quantifier": "all names, checksums, identifiers, block sizes and delays; all stacks without a running transfer", "why_tests_cant": "values come from the bus; byte positions in two frames must fit for all values", "anchors": ["source/xload/li_can_slv_xload.c:li_can_slv_dload_start_request1", "source/xload/li_can_slv_xload.c:li_can_slv_dload_start_request2", "source/xload/li_can_slv_xload.c:li_can_slv_uload_start_request1", "source/xload/li_can_slv_xload.c:li_can_slv_uload_start_request2"]}
{"id": "C70", "title": "A transfer ends exactly when it should", "statement": "An end request calls the application once. If the application leaves the acknowledge to the stack, exactly one acknowledge is sent and the transfer is over; otherwise nothing is sent and the transfer goes on until the application acknowledges. End acknowledge and termination by the master end an upload silently; the acknowledge of an upload block is passed to the application once.", "quantifier": "all stacks, all replies of the application", "why_tests_cant": "depends on the state of a transfer and on application replies", "anchors": ["source/xload/li_can_slv_xload.c:li_can_slv_dload_end", "source/xload/li_can_slv_xload.c:li_can_slv_dload_end_ackn", "source/xload/li_can_slv_xload.c:li_can_slv_uload_end_ackn", "source/xload/li_can_slv_xload.c:li_can_slv_uload_block_ackn"]}
{"id": "C71", "title": "Closing a tunnel session", "statement": "A close request asks the port: if it agrees, the session is closed and the close acknowledged; if not, the session stays and the denial carries the reason. A shutdown by the module sends one close request to the partner; its acknowledge frees the port and closes the session, its denial makes the session active again.", "quantifier": "all stacks, all partners, all replies of the port", "why_tests_cant": "depends on the order of messages of both partners and port replies", "anchors": ["source/async/io_can_async.c:can_async_rx", "source/async/io_can_async.c:can_async_tunnel_shutdown"]}
{"id": "C72", "title": "A download that needed a restart is acknowledged exactly once", "statement": "If the transfer info says that a download needs a restart, a successful lcsa_start sends exactly one end acknowledge on behalf of the module of that download and the info says application mode afterwards, with a valid checksum, so the next start sends nothing. In all other cases lcsa_start sends nothing.", "quantifier": "all stacks, all transfer infos", "why_tests_cant": "depends on persistent memory across a restart", "anchors": ["source/api/li_can_slv_api.c:lcsa_start", "source/xload/li_can_slv_xload_info.c:li_can_slv_xload_info_set_mode"]}
{"id": "C73", "title": "A received frame ends the search", "statement": "Whenever a search for the bit rate is running and a frame is received, there is a moment without a search within the next idleMax + 2 calls of lcsa_process, whatever bus states and errors the driver reports in them.", "quantifier": "all histories, all frames, all later driver reports", "why_tests_cant": "unbounded histories; the search is in one of three phases with counters", "anchors": ["source/core/io_can_reconnect.c:li_can_slv_reconnect_process", "source/arch/canpie_adapter/io_can_main_hw_handler.c:can_main_hw_handler_rx"]}
{"id": "C74", "title": "A running download is not disturbed by messages that do not belong to it", "statement": "While one module receives a download, a version or info request, or a message for another module, leaves buffer, counters and component of the download as they are. False: a version request that the application refuses (for any module) ends the running download; data for another module enter its buffer and are delivered with it; an info request erases the name of its component. Proved for version requests the application answers. Exact: data, block end and download end have the same effect on the transfer for whichever module of the node they are addressed to.", "quantifier": "all stacks, all messages", "why_tests_cant": "needs interleavings of messages for several modules", "anchors": ["source/xload/li_can_slv_xload.c:li_can_slv_dload_data", "source/xload/li_can_slv_xload.c:li_can_slv_dload_version_request_short", "source/xload/li_can_slv_xload.c:li_can_slv_uload_info_request_short", "source/xload/li_can_slv_xload.c:li_can_slv_dload_termination"]}
{"id": "C75", "title": "A monitored module is valid iff both controllers saw a correct period", "statement": "With a monitor controller, consider one period: the process request reaches both controllers (in either order), frames and calls follow, the next request arrives at either controller. That request makes a module valid iff each transmit object switched on was read back by the monitor exactly once with the contents the application object had at the request, each receive object switched on arrived exactly once at each controller, and both controllers got the same value. It calls the request callbacks, then the valid or not-valid callback of every module, then (iff all are valid) the all-valid callback. False for requests longer than one byte (nothing is judged), for frames the monitor reports after the next request of the main controller, and for modules switched during the period.", "quantifier": "all module tables, conversions, data and frame orders of a period, both orders of the requests", "why_tests_cant": "two controllers with unsynchronised interrupts; all interleavings of the frames of a period", "anchors": ["source/sync/io_can_sync.c:li_can_slv_sync_check_process_image", "source/sync/io_can_sync.c:li_can_slv_sync_check_process_image_module", "source/sync/io_can_sync_handler.c:can_sync_handler_rx_mon", "source/sync/io_can_sync.c:can_sync_tx_data_mon"]}
{"id": "C76", "title": "The monitor watches every object of every registered module", "statement": "After lcsa_add_module returned OK, each receive and each transmit object of the module has a message object of its own at the monitor that accepts exactly its identifier; other message objects of the monitor accept the process request or the system message to all. False when the monitor runs out of message objects: OK is returned, the module transmits unwatched, and the all-valid callback ignores it. Proved for completed registrations.", "quantifier": "all histories of registrations, frames and calls", "why_tests_cant": "depends on the resources left by all earlier registrations", "anchors": ["source/config/io_can_config.c:can_config_set_module", "source/core/io_can_mon.c:can_mon_define_msg_obj", "source/arch/canpie_adapter/io_can_mon_hw.c:can_mon_hw_get_next_free_msg_obj"]}
{"id": "C77", "title": "Verdicts change only when both controllers receive process requests", "statement": "While the monitor (or the main controller) receives no process request, the validity of every module stays what it was, whatever else happens: frames on both controllers, requests on the other controller, registrations, number, mode and baud rate changes. In particular a module does not become invalid when a controller is lost and its data stop: it stays valid for ever (the witness is part of the claim).", "quantifier": "all histories in which one controller receives no request", "why_tests_cant": "unbounded silence of one controller", "anchors": ["source/sync/io_can_sync.c:li_can_slv_sync_check_process_image"]}
{"id": "C78", "title": "Both controllers always have the same bit rate", "statement": "After initialisation and any history of frames, registrations, mode changes and baud rate changes by API or system message, main and monitor controller were last programmed with the same rate.", "quantifier": "all histories", "why_tests_cant": "invariant over unbounded histories", "anchors": ["source/config/io_can_config.c:can_config_set_baudrate", "source/arch/canpie_adapter/io_can_mon_hw.c:can_mon_hw_set_baudrate", "source/sys/io_can_sys.c:can_sys_msg_rx"]}
{"id": "C79", "title": "Both controllers are in the same mode", "statement": "li_can_slv_set_node_mode puts both controllers into the requested mode and reports a failure. False: stopping leaves the monitor started, a refusal of the main driver is overwritten by the result of the monitor, setting the rate of a node not started starts the monitor. Proved for operational and listen with an accepting driver.", "quantifier": "all states, all modes, all answers of the driver", "why_tests_cant": "needs a refusing driver", "anchors": ["source/core/io_can.c:li_can_slv_set_node_mode", "source/core/io_can_mon.c:can_mon_enable", "source/arch/canpie_adapter/io_can_mon_hw.c:can_mon_hw_enable"]}
{"id": "C80", "title": "Frames received by the monitor do not interfere with the main part", "statement": "A frame received by the monitor controller, whatever its object, identifier, length and data, transmits nothing and leaves application objects, module table, message objects of the main controller, error queue, node mode and rates alone; it only may call application callbacks.", "quantifier": "all states, all frames", "why_tests_cant": "non-interference over all states and frames", "anchors": ["source/sync/io_can_sync_handler.c:can_sync_handler_rx_mon", "source/sync/io_can_sync.c:can_sync_rx_data_mon", "source/sync/io_can_sync.c:can_sync_tx_data_mon"]}
{"id": "C81", "title": "A period with a doubled or overlong process request is not judged", "statement": "On a slave with monitor controller, after any history: unless each controller received, since the last evaluation, one process request (modulo 65536) of at most one byte, the next request on either controller leaves the verdict on every module as it was and calls no validity callback; a request on the main controller only calls the request callbacks and transmits, a request on the monitor does nothing visible.", "quantifier": "all histories of frames on both controllers, API calls, registrations and number changes", "why_tests_cant": "needs all interleavings of requests of both controllers over unbounded histories", "anchors": ["source/sync/io_can_sync.c:li_can_slv_sync_check_process_image", "source/sync/io_can_sync.c:can_sync_rx_process_mon", "source/sync/io_can_sync_handler.c:can_sync_handler_rx_mon"]}
{"id": "C82", "title": "The valid-time functions report when a module was last valid", "statement": "li_can_slv_sync_set_process_time_valid_fnc hands out, for a registered type, the function of the first registered module of that type and refuses an unknown type. At any time after power-on this function returns the time of the last process request that found the module valid, zero if there was none; the first request, a request after one of more than one byte, and anything that is no request change neither this time nor the verdict. (With two modules of one type the time of the second one cannot be obtained.)", "quantifier": "all histories of frames and API calls from power-on, all module tables", "why_tests_cant": "relates a stored time to the whole history of periods", "anchors": ["source/sync/io_can_sync.c:li_can_slv_sync_set_process_time_valid_fnc", "source/sync/io_can_sync.c:can_sync_get_pr_time_valid_module1", "source/sync/io_can_sync.c:li_can_slv_sync_check_process_image_module"]}
{"id": "C83", "title": "The driver FIFO is a bounded queue", "statement": "A FIFO initialised with CpFifoInit for n messages behaves, through CpFifoIsFull/DataInPtr/IncIn, CpFifoIsEmpty/DataOutPtr/IncOut, CpFifoFree and CpFifoPending, as a queue with room for n: messages come out in the order put in, none lost or doubled, refused exactly when n are stored; the two counters and the two flags are exact and the indices never leave the array.", "quantifier": "all sizes 0 < n < 2^32, all histories of operations", "why_tests_cant": "unbounded sequences around the wrap of both indices, with the full/empty flag kept separately", "anchors": ["verify/canpie/source/canpie-fd/cp_fifo.c:CpFifoIncIn", "verify/canpie/source/canpie-fd/cp_fifo.c:CpFifoIncOut", "verify/canpie/source/canpie-fd/cp_fifo.c:CpFifoFree", "verify/canpie/source/canpie-fd/cp_fifo.c:CpFifoPending"]}
{"id": "C84", "title": "The driver transmits exactly the frames it took", "statement": "From can_main_hw_init on, any sequence of can_main_hw_send_msg calls with legal frames (identifier below 2048, at most eight bytes) and of controller interrupts is free of undefined behaviour; OK is returned unless the controller is busy and sixteen frames wait, then 0x5078; the bus shows the frames with identifier, length and bytes unchanged. If the controller counts as busy while frames wait, the bus shows the frames taken in the order of the calls, without loss or duplication. (Otherwise a later frame overtakes; an identifier of twelve bits is silently cut to eleven; more than eight bytes overflow the message.)", "quantifier": "all histories of transmissions and controller interrupts, all legal frames", "why_tests_cant": "unbounded interleaving of transmissions with controller completions", "anchors": ["source/arch/canpie_adapter/io_can_main_hw.c:can_main_hw_send_msg", "verify/canpie/source/canpie-fd/cp_msg.c:CpMsgSetDlc", "verify/canpie/source/canpie-fd/cp_msg.c:CpMsgSetIdentifier", "verify/canpie-fd_device/unittest_canpie-fd.c:CpCoreFifoWrite"]}
{"id": "C85", "title": "Every frame of the stack is a legal CAN frame and reaches the bus unmodified", "statement": "From power-on, through any history of API calls and received frames, every frame the stack hands to the driver has an identifier below 2048, at most eight bytes and exactly the announced number of bytes; with the driver of C84, transmission is free of undefined behaviour and the frames for which the stack got OK are exactly those on the bus followed by those waiting, in order and unmodified.", "quantifier": "all histories of frames, API calls, handler actions, all interleavings with the controller", "why_tests_cant": "an invariant over module table, transmit register, queue, tunnel and transfer state for unbounded histories", "anchors": ["source/arch/canpie_adapter/io_can_main_hw.c:can_main_hw_send_msg", "source/core/io_can_main.c:can_main_sync_process_tx_data_cnfg", "source/core/io_can_main.c:can_main_send_queue_system_tx", "source/async/io_can_async.c:can_async_send_data_to_async_ctrl_tx_queue", "source/async/io_can_async.c:can_async_send_data_to_async_data_tx_queue", "source/config/io_can_config.c:can_config_change_module_nr"]}
{"id": "C86", "title": "Which nodes delay their status answers alike", "statement": "The sequence of random delays before status answers is a function of the serial number modulo 65536 only. Two nodes wait equally long before every status answer exactly if their serial numbers agree modulo 65536; otherwise their delays differ at one of any six successive status requests from power-on. (So nodes whose 24-bit serial numbers differ only in the upper byte, for example 1 and 65537, always collide.) The delay is always one of the thirteen multiples of 8 from 0 to 96 and is given by a closed formula; so of any fourteen nodes two answer any given status request at the same moment.", "quantifier": "all pairs of serial numbers, all numbers of requests", "why_tests_cant": "needs all pairs of serial numbers and the unbounded sequence of the generator", "anchors": ["source/sys/io_can_sys.c:li_can_slv_rand", "source/sys/io_can_sys.c:can_sys_init"]}
{"id": "C87", "title": "Converted numbers are independent of the byte order of the platform", "statement": "The example conversions for 16- and 32-bit numbers put every number most significant byte first on the bus and give it back in the platform's own byte order, whatever the platform; only the bytes of the object are read and written. Hence numbers transmitted by a platform of one byte order and received by one of the other arrive unchanged. Bit fields arrive unchanged likewise, least significant byte first; nibbles are copied byte by byte. (With an odd length the last byte is not converted and goes out as the buffer held it; numbers converted by the nibble functions arrive byte-swapped on the other platform.)", "quantifier": "all byte orders, all lists of numbers, all object lengths, all contents of the buffers", "why_tests_cant": "tests run on one platform with a few values", "anchors": ["verify/io_app_conv/io_app_convc.c:app_convc_tx_uint16", "verify/io_app_conv/io_app_convc.c:app_convc_main_rx_uint16", "verify/io_app_conv/io_app_convc.c:app_convc_tx_uint32", "verify/io_app_conv/io_app_convc.c:app_convc_main_rx_uint32", "verify/io_app_conv/io_app_convc.c:app_convc_tx_bit", "verify/io_app_conv/io_app_convc.c:app_convc_main_rx_nibble"]}
{"id": "C88", "title": "Three signed 20-bit values fit in one object", "statement": "app_convc_sint32_to_sint20 puts the low twenty bits of three values one behind the other, first value foremost, into eight bytes, with the last four bits zero; any three values from -2^19 to 2^19-1 are recovered exactly from the eight bytes.", "quantifier": "all triples of 32-bit values", "why_tests_cant": "2^60 combinations of values, with carries between neighbouring nibbles", "anchors": ["verify/io_app_conv/io_app_convc.c:app_convc_sint32_to_sint20"]}
{"id": "C89", "title": "Sixteen 12-bit channels in three objects", "statement": "The three uint12 receive conversions together recover all sixteen channels, whatever the order in which the three objects arrive, however often, and whatever the application object held before, and touch nothing outside its 32 bytes. The three uint12 transmit conversions produce these three objects from an application object of 32 bytes. Through the stack the transmit conversions must find these 32 bytes too.", "quantifier": "all channel values, all sequences of objects, all previous contents", "why_tests_cant": "all orders and repetitions of the objects, all values", "anchors": ["verify/io_app_conv/io_app_convc.c:app_convc_main_rx_uint12_msg_obj_1", "verify/io_app_conv/io_app_convc.c:app_convc_main_rx_uint12_msg_obj_3", "verify/io_app_conv/io_app_convc.c:app_convc_main_tx_uint12_msg_obj_1", "source/sync/io_can_sync.c:can_sync_tx_data_main"]}
{"id": "C90", "title": "The effect of a received frame depends on the received bytes only", "statement": "What the stack does after any sequence of API calls and received frames is determined by identifiers, lengths and data bytes of the frames; it does not depend on bytes the receive handler happens to find in its uninitialised array. Every frame another node handed to its driver reaches the stack with its identifier, length and bytes. A frame has the effect of its own identifier with its own bytes, and frames without data (remote frames) have none.", "quantifier": "all histories, all frames, all contents of uninitialised memory, all platforms' receive conversions that read their object only", "why_tests_cant": "uninitialised memory has one arbitrary value in a test run", "anchors": ["source/arch/canpie_adapter/io_can_main_hw_handler.c:can_main_hw_handler_rx", "verify/canpie-fd_device/unittest_canpie-fd.c:CpCoreBufferGetData", "source/async/io_can_async_handler.c:can_async_handler_rx", "source/async/io_can_async.c:can_async_rx"]}
{"id": "C91", "title": "Numbers of the application on the bus", "statement": "With the example conversions registered, a process request is answered, for every module taking part and each of its transmit objects, by a frame carrying the numbers in the application's object most significant byte first; a process data frame of another node leaves its numbers in the application's receive object in the byte order of the platform, and changes nothing else. So numbers are exchanged between platforms of any byte order.", "quantifier": "all histories of registrations and silent/awake calls, both byte orders, all lists of 16- or 32-bit numbers fitting into eight bytes, all modules and objects", "why_tests_cant": "tests run one platform and check single values", "anchors": ["source/sync/io_can_sync.c:can_sync_tx_data_main", "source/sync/io_can_sync_handler.c:can_sync_handler_rx", "verify/io_app_conv/io_app_convc.c:app_convc_tx_uint16", "verify/io_app_conv/io_app_convc.c:app_convc_main_rx_uint32"]}
{"id": "C92", "title": "The reported state tells what the node does", "statement": "The state returned by lcsa_get_state is RECONNECT exactly while the node searches for its baud rate and only listens, and RUNNING when it is operational: it becomes RECONNECT with the first process call that begins a search on a running node and stays so until the search is over, then it is RUNNING with the node operational and the driver started; with a driver that does as it is told RECONNECT is never reported without a search.", "quantifier": "all histories of API calls, received frames and bus states from power-on, all callbacks of the application, all timings", "why_tests_cant": "the state is assigned in nine places of two files; tests check it after single calls", "anchors": ["source/core/io_can.c:lcsa_set_state", "source/core/io_can_reconnect.c:can_reconnect_on", "source/core/io_can_reconnect.c:can_reconnect_off", "source/api/li_can_slv_api.c:lcsa_start"]}
{"id": "C93", "title": "Search callbacks come in pairs", "statement": "An application that registered the four callbacks of the baud rate search is told of every search when it begins and when it ends, in turn and with the right kind (startup or online): between two begins there is the end of the first one, no end comes without a begin, and what was told last is a begin exactly if a search is running.", "quantifier": "all histories of API calls, received frames and bus states from power-on, all callbacks, all timings", "why_tests_cant": "a property of whole histories: begin and end are called from different branches of the state machine", "anchors": ["source/core/io_can_reconnect.c:can_reconnect_off", "source/core/io_can_reconnect.c:can_reconnect_call_online_change_baudrate_start_cbk", "source/core/io_can_reconnect.c:can_reconnect_call_startup_change_baudrate_start_cbk", "source/core/io_can_reconnect.c:li_can_slv_reconnect_process"]}
{"id": "C94", "title": "Two slaves with different module numbers never send the same identifier", "statement": "From power-on, through any history, every frame a slave hands to its driver has one of the identifiers belonging to the module numbers its application and voter use (system answer, process data 0..3, control, data). Hence two slaves whose sets of numbers are disjoint never transmit frames with the same identifier, whatever each receives. Assumes distinct numbers within a node, no exchange of module types, and that no frame is addressed to 125..127 or arrives before the first registration; outside of this it is false: unused rows of the module table answer for the numbers 125..127, a module whose type changes while it is silent sends process data with identifier 0, a node without modules sends errors as number 125.", "quantifier": "all pairs of configurations, number sets and histories of API calls and received frames of both nodes", "why_tests_cant": "a relation between the unbounded histories of two nodes; the unused rows become visible only for particular combinations of numbers", "anchors": ["source/config/io_can_config.c:can_config_module_nr_valid", "source/config/io_can_config.c:can_config_add_module", "source/sys/io_can_sys.c:can_sys_msg_rx", "source/core/io_can_main.c:can_main_send_queue_system_tx", "source/core/io_can_main.c:can_main_sync_process_tx_data_cnfg", "source/config/io_can_config.c:can_config_change_module_type", "source/async/io_can_async.c:can_async_send_data_to_async_data_tx_queue"]}
{"id": "C95", "title": "Slaves do not receive frames of slaves", "statement": "At every moment of every history, no receive message object of a slave (filters for system, control, data and process data messages, also after number changes and tunnel openings) lets a frame through that any slave, itself included, has ever sent. Same assumptions as C94; with a table of more than four rows a module registered with a duplicate number gets a default number above 128, its process data then have the identifier of a control message to another slave and are taken for commands of the master.", "quantifier": "all pairs of configurations and histories, all frames sent, all message objects", "why_tests_cant": "a relation between the unbounded histories of two nodes, over all acceptance masks", "anchors": ["source/config/io_can_config.c:can_config_set_module", "source/config/io_can_config.c:li_can_slv_config_change_module_nr_and_identifiers", "source/config/io_can_config.c:can_config_add_module", "source/async/io_can_async.c:can_async_rx"]}
{"id": "C96", "title": "The tunnel buffer survives interrupts between putc and the processing", "statement": "Activations of li_can_slv_async_tunnel putc and of the tunnel's transmit processing may interrupt each other anywhere (nested, at most 65535 deep). At most one of them is in the guarded code at a time; the buffer and the transmit queue are always what the served activations produce executed one after the other from beginning to end; a refused activation (ERR_MSG_CAN_ASYNC_TNL_BUSY) has interrupted another one in the guarded region and changed nothing; the lock is free again afterwards. So the bytes put successfully leave the tunnel in order, none lost or doubled. Between contexts that share the processor in time slices it is false: a byte is lost though both calls return OK, and the lock can stay taken, so that the tunnel refuses for ever.", "quantifier": "all schedules of nested activations, all arguments, all contents of buffer and queue", "why_tests_cant": "depends on the instruction at which an interrupt strikes; the number of schedules is unbounded", "anchors": ["source/async/io_can_async.c:can_async_tunnel_putc", "source/async/io_can_async.c:can_async_tunnel_process_tx_data"]}
{"id": "C97", "title": "The error handler is not re-entered", "statement": "With LI_CAN_SLV_RECONNECT_ENA_ERR_HANDLER_LOCK, can_main_hw_handler_error is never executed by two nested contexts at once: bus-off handling runs from beginning to end before another one starts, an activation that finds the lock taken returns without effect, and the lock is free again afterwards. Without that option an interrupt re-enters the handler; with time slices the lock does not exclude anything.", "quantifier": "all schedules of nested activations", "why_tests_cant": "depends on the instruction at which an interrupt strikes", "anchors": ["source/arch/canpie_adapter/io_can_main_hw_handler.c:can_main_hw_handler_error"]}
{"id": "C98", "title": "Errors reported and retrieved from interrupts", "statement": "can_error_sys_error_send_full and can_error_sys_error_get_full share the queue without a lock. If interrupts only report errors and the task only retrieves them, or more generally if no interrupt retrieves while the task retrieves, none reports while the task is storing, and one retrieves while the task is storing only if an entry is there that was stored before, then every call returns what it would return if all calls were executed one after the other as a whole (first in, first out, queue-full marker), and no access is outside the array. Otherwise it is false: an error report is lost if count-- is not a single instruction; the CAN interrupt that retrieves during a report obtains an entry nobody reported and the error is never sent; two nested reports mix their members.", "quantifier": "all schedules of steps and interrupts, all errors, all queue sizes", "why_tests_cant": "depends on the instruction at which an interrupt strikes, and on the contents of the queue at that moment", "anchors": ["source/error/io_can_error.c:can_error_sys_error_send_full", "source/error/io_can_error.c:can_error_sys_error_get_full"]}
{"id": "C99", "title": "A module number can be changed any number of times", "statement": "A change of a module number (can_config_change_module_nr) that the application's voter accepts leaves the module reachable under its new number: a message object of the controller takes the control messages to it and the acceptance filters let through system messages and data to it. This holds however often numbers are changed. False of the code: every change takes one more message object for the control messages and never releases the old one. Exactly as many changes succeed as there are unused message objects; every later one returns CAN_NO_MSG_OBJ_FREE after the number, the process data identifiers and the receive objects have already been changed, so the module sends with its new number but no longer receives system messages, control messages or data.", "quantifier": "all configurations, all histories of registrations and silent/awake requests, all sequences of number changes of registered modules", "why_tests_cant": "A test changes a number once or twice; the failure comes after as many changes as there are unused message objects, which depends on the controller and on all registrations before.", "anchors": ["source/config/io_can_config.c:1402-1448", "source/config/io_can_config.c:1781-1926", "source/config/io_can_config.c:2477-2495", "source/arch/canpie_adapter/io_can_main_hw.c:147-171"]}
{"id": "C100", "title": "A module that becomes silent delivers zeros to its application", "statement": "When a module is set silent, the receive conversion of each of its objects is called once with eight zero bytes, the configured length and the application's data object, so the application no longer sees the last commands received; no other application data changes. As long as the module stays silent, frames sent to its process data objects change nothing of the application's data. Setting a module awake changes no application data.", "quantifier": "all configurations, conversions, application memories, nodes and modules with application receive conversions and distinct data objects; for the frames: all reachable states in which the module's entry is as the silent request left it, all frames delivered to its objects", "why_tests_cant": "The old data must disappear for every number of objects and every conversion, and no later frame may bring them back; a test checks one module with one frame.", "anchors": ["source/config/io_can_config.c:1209-1251", "source/config/io_can_config.c:1715-1745", "source/sync/io_can_sync.c:490-584"]}
{"id": "C101", "title": "The transfer info returns the values stored last", "statement": "The transfer info (mode, component, bit rate and two user bytes kept over a reset) returns for each value what was stored last, whatever the memory contained at power-on, whatever was called before, and across any later calls for the other values and any number of resets (li_can_slv_xload_info_init) that keep the memory. After a clean the mode is RUNNING, the component is unset and the user bytes are zero until they are stored again.", "quantifier": "all initial memory contents, all checksum functions, all sequences of calls before and after", "why_tests_cant": "A test stores and reads back single values; that no sequence of other setters and resets destroys a value (a setter that forgets the checksum makes the next reset clean everything) is a statement over all sequences.", "anchors": ["source/xload/li_can_slv_xload_info.c:101-183", "source/xload/li_can_slv_xload_info.c:185-290"]}
{"id": "C102", "title": "Errors reported by number are retrieved by number", "statement": "An error reported with error_syserr_send is retrieved with can_error_sys_error_get exactly once, in the order of the reports, with the reported error number, priority and module number, as long as the queue has room; a retrieval with nothing stored returns NO_ENTRY (NOT_INITIALIZED before the first report) and stores nothing. A priority that differs from the redundant priority issues a FATAL error, as documented. False of the code in three places: FATAL errors are accepted and lost, the redundant priority is ignored, and every retrieval that finds nothing stores an indeterminate value (an uninitialised local variable) in the caller's error number.", "quantifier": "all queue sizes, all histories of reports and retrievals with room for two more errors at every report", "why_tests_cant": "All error numbers, priorities and interleavings are covered at once; the indeterminate value may look right in a test.", "anchors": ["source/error/io_can_error.c:139-149", "source/error/io_can_error.c:181-342", "source/error/io_can_error.c:351-418", "include/li_can_slv/error/io_can_errno.h:61-99"]}
{"id": "C103", "title": "Without the error queue the last error is returned", "statement": "In the configuration without the error queue the number of errors is one if an error was reported since the last retrieval and zero otherwise; a retrieval returns number, priority and module of the error reported last, and NO_ENTRY if there is none. False of the code for the last part: a retrieval without a new error answers OK and returns the old error again. Exact: every retrieval answers OK and gives the error reported last, zeros before the first.", "quantifier": "all histories of reports and retrievals", "why_tests_cant": "The statement is about every history; a test retrieves once after one report.", "anchors": ["source/error/io_can_error.c:106-111", "source/error/io_can_error.c:323-334", "source/error/io_can_error.c:409-416", "source/error/io_can_error.c:475-491"]}
{"id": "C104", "title": "A request without a handler is refused", "statement": "A version, start, block end, end, upload info or upload start request for which the application registered no handler is answered with exactly one message, the termination message with error UNKNOWN_COMPONENT; no other handler is called and no transfer is in progress afterwards. A start ordered by the application without a start handler behaves the same. An acknowledge of an upload block without a handler changes and sends nothing.", "quantifier": "all configurations, all states with an awake addressed module, all message contents, all subsets of registered handlers", "why_tests_cant": "Every combination of registered handlers, transfer states and message contents is covered; calling through a missing function pointer would crash only in the untested combination.", "anchors": ["source/xload/li_can_slv_xload.c:500-580", "source/xload/li_can_slv_xload.c:631-764", "source/xload/li_can_slv_xload.c:771-812", "source/xload/li_can_slv_xload.c:977-1014", "source/xload/li_can_slv_xload.c:1238-1376", "source/async/io_can_async.c:344-632"]}
{"id": "C105", "title": "The application's transfer messages carry its arguments, unknown commands are ignored", "statement": "Each of the functions by which the application answers in a transfer (start acknowledge, version answer, upload info answer, end acknowledge, upload end, termination) sends exactly one control message of the module, with the arguments of the call at their documented places, most significant byte first, and changes nothing else than documented (the start acknowledge empties buffer and counters, end acknowledge and termination release the transfer). A control message with a command outside the protocol changes and sends nothing and is reported as UNKNOWN_COMMAND.", "quantifier": "all states, module numbers and arguments; all first bytes outside the protocol", "why_tests_cant": "All argument values and states are covered; a test checks a few values.", "anchors": ["source/xload/li_can_slv_xload.c:158-187", "source/xload/li_can_slv_xload.c:352-375", "source/xload/li_can_slv_xload.c:821-939", "source/xload/li_can_slv_xload.c:1183-1198", "source/async/io_can_async.c:344-632"]}
{"id": "C106", "title": "The monitor never leaves its tables and never calls a missing function", "statement": "After initialisation and any history of frames on both controllers, registrations (also failing ones), number changes, silencing, mode and baud rate changes, the tables of monitor message objects are within their sizes, every monitor object of a row exists, the rows in the tables have their monitor conversions and the monitor part has met no undefined behaviour. The modules registered must come with their monitor conversions; without them the first frame calls through NULL (witness).", "quantifier": "all configurations with at least five monitor objects, all driver behaviours, all histories", "why_tests_cant": "Overruns need particular sequences of failing registrations and number changes; the claim covers all of them.", "anchors": ["source/core/io_can_mon.c:313-340", "source/core/io_can_mon.c:355-412", "source/config/io_can_config.c:1781-1926", "source/config/io_can_config.c:2173-2398", "source/sync/io_can_sync.c:697-792", "source/sync/io_can_sync.c:812-888"]}
{"id": "C107", "title": "The monitor does not change what the slave does on the bus", "statement": "A slave built with the monitor controller sends, after initialisation and any history of frames on both controllers, registrations, number changes, silencing, mode and baud rate changes, exactly the frames a slave built without the monitor sends in the same history without the monitor's frames, in the same order; its module table, message objects, application memory, pending errors, node mode, baud rates, system message state, cycle time and period are equal, and it hangs only where the other one does. Needed: the drivers accept what they are asked (else the result of the main driver is overwritten and a baud rate message takes effect that is refused without monitor, witness), and no registration fails (else a module the monitor has no objects for does not transmit, witness).", "quantifier": "all configurations, application functions, memories and histories of inputs", "why_tests_cant": "A comparison of two builds over all histories; tests run one build on a few histories.", "anchors": ["source/core/io_can.c:97-277", "source/core/io_can.c:330-341", "source/config/io_can_config.c:819-844", "source/config/io_can_config.c:1781-1926", "source/config/io_can_config.c:2173-2398", "source/sync/io_can_sync.c:959-1060", "source/sync/io_can_sync_handler.c:102-288"]}
{"id": "C108", "title": "The end of a baud rate search is reported with the rate found", "statement": "When a search ends and the driver takes the node back to operational, li_can_slv_process puts exactly one error into the system error queue, of the lowest level and under the number of the first module: 0x5052..0x5055 for 125, 250, 500, 1000 kBit/s after a search at startup, 0x5056..0x5059 after a search while running. The rate named is the rate the controller is set to and the rate the application is told. Nothing is reported when the search at startup ended because the bus was silent, when a search begins or goes on, or otherwise; besides, a processing can only report a frame the driver refused (0x5078). False for a search at startup ended by a frame before the first switch: nothing is reported, the application is told rate 0 (witness).", "quantifier": "all configurations, application functions and histories of calls, frames and bus states from power on", "why_tests_cant": "Which of the eight numbers is reported depends on the kind and the course of the search; a test sees a few searches.", "anchors": ["source/core/io_can_reconnect.c:833-1030", "source/core/io_can_reconnect.c:542-740", "source/core/io_can.c:291-328"]}
{"id": "C109", "title": "A started node is in operation or searching", "statement": "From lcsa_start on, with a driver that does as it is told, the node is at every moment either in operation - mode OPERATIONAL, controller started - or a search for the bit rate is running; a bus error never silences it without a search, and a baud rate message does not leave it stopped. False if the application has set the state STOPPED: a bus off or an error then makes the node listen only without a search, and it stays so, whatever is received and also after the state is set back to RUNNING, until the next bus error or lcsa_start (proved, with a witness).", "quantifier": "all configurations and application functions, all states before the start, all histories of calls, frames, bus states and errors after it", "why_tests_cant": "Mode, controller state and search are changed in a dozen places; the claim is about every moment of every history.", "anchors": ["source/arch/canpie_adapter/io_can_main_hw_handler.c:can_main_hw_handler_error", "source/core/io_can_reconnect.c:li_can_slv_reconnect_on_main_node_recovery", "source/core/io_can_reconnect.c:can_reconnect_off", "source/sys/io_can_sys.c:can_sys_msg_rx", "source/core/io_can.c:lcsa_set_state"]}
{"id": "C110", "title": "The reported bit rate is the rate of the controller", "statement": "lcsa_get_baudrate returns the rate the controller was given last, through searches, baud rate messages, restarts and refusals of the driver. False if lcsa_set_baudrate is called on a running node: it returns an error, the controller keeps its rate, and the new rate is reported from then on (witness). Proved for all histories in which lcsa_set_baudrate is called only while the node is stopped or not yet started. Exact: what lcsa_set_baudrate does in every state; an unsupported rate does nothing and returns OK.", "quantifier": "all histories of calls, frames, bus states and errors from power-on, all driver refusals", "why_tests_cant": "The rate is written in two places for every change; tests compare them after single calls.", "anchors": ["source/config/io_can_config.c:can_config_set_baudrate", "source/config/io_can_config.c:can_config_get_baudrate", "source/core/io_can_reconnect.c:can_reconnect_next_baudrate", "source/core/io_can_reconnect.c:can_reconnect_off", "source/sys/io_can_sys.c:can_sys_msg_rx"]}
{"id": "C111", "title": "A search leaves a rate at which it sees only errors", "statement": "A running search that was switched to a bit rate tries the next one as soon as li_can_slv_process sees an error more than LI_CAN_SLV_RECONNECT_BAUDRATE_SWITCH_TIME after the switch. False at the wrap of the tick counter: if the time for the rate ends exactly at the last tick before the wrap, the search never leaves that rate, however often it sees errors (proved for every such switch, with a witness from power-on); if it ends a few ticks before, the search waits up to a whole turn of the counter. Proved: the exact condition on the ticks read.", "quantifier": "all histories before the switch, all histories after it without a further switch, all sequences of calls with errors, all ticks", "why_tests_cant": "The counter wraps after days; 'never' is a statement about all later calls.", "anchors": ["source/core/io_can_reconnect.c:li_can_slv_reconnect_process", "source/core/io_can_reconnect.c:can_reconnect_next_baudrate"]}
{"id": "C112", "title": "A frame the driver refuses is repeated or reported", "statement": "If the driver does not take a frame, the frame is kept for another attempt or an error is reported. Process data: exactly one error 0x5078 per refused frame goes into the system error queue. Asynchronous data: the frame stays in the transmit queue and the refusal is reported. False for system messages and control messages: an error message taken from the error queue by a status request is lost, neither transmitted nor waiting nor reported; segments of an upload are lost while li_can_slv_uload_data_from_buffer returns as if they had been sent (witnesses).", "quantifier": "all nodes and states, all drivers, all process requests and frames of the application", "why_tests_cant": "Depends on the sequence of driver results at every transmission.", "anchors": ["source/core/io_can_main.c:can_main_sync_send_process_data", "source/core/io_can_main.c:can_main_send_queue_system_tx", "source/async/io_can_async.c:can_async_handle_async_data_tx_queue", "source/core/io_can_main_handler.c:can_main_handler_tx", "source/xload/li_can_slv_xload.c:li_can_slv_uload_data_from_buffer"]}
{"id": "C113", "title": "Frames are ignored only for 20 ms after a search", "statement": "Compiled with LI_CAN_SLV_RECONNECT_IGNORE_RX_AFTER_RECONNECT_FOR_A_TIME, a node that is not searching ignores received frames during the 20 ms after its last search ended and serves them after that. False at the wrap of the tick counter: the counter is compared with an absolute tick, so after a wrap the node ignores every frame until the counter has again reached the tick at which the last search ended (proved for every history and every list of frames; witness: 25 days), and a search ending within 20 ms before the wrap has no such time at all. Proved: a frame is ignored exactly if the tick read is below the tick at which the last search ended (0 if there was none) plus 20 ms, modulo 2^32.", "quantifier": "all histories of inputs from power-on, all received frames, all ticks", "why_tests_cant": "The counter wraps after 49 days; the last search may have ended at any tick before, by any of several causes.", "anchors": ["source/arch/canpie_adapter/io_can_main_hw_handler.c:can_main_hw_handler_rx", "source/core/io_can_reconnect.c:can_reconnect_off"]}
{"id": "C52", "title": "Peeking shows the stored errors in order", "statement": "Looking at the stored system errors without removing them: position i shows the i-th oldest stored error. Proved exactly: which of all the errors ever stored position i shows, for every history; it is the right one if and only if the queue is full or the number of errors retrieved so far is a multiple of the queue size.", "quantifier": "all histories of reports and retrievals, all queue sizes, all positions", "why_tests_cant": "unbounded histories; index arithmetic depends on how many errors were ever retrieved", "anchors": ["source/error/io_can_error.c:can_error_sys_error_peek"]}
{"id": "C58", "title": "Uploading a block returns", "statement": "li_can_slv_uload_data_from_buffer returns if the clock keeps running. Proved for every clock that, for every earlier reading, later shows a value above that reading plus the requested spacing (modulo 2^32). False at the end of the tick counter: with the counter at its maximum value and no spacing requested the wait condition is never met although the clock runs through all its values again and again (concrete case). Proved exactly: the upload returns if and only if the readings of the clock contain, for each message in turn, one above the reading that started the wait plus the spacing, modulo 2^32.", "quantifier": "all data lengths, spacings, clock readings", "why_tests_cant": "tests use a frozen or fast clock; the hang depends on the counter value at the wrap-around", "anchors": ["source/xload/li_can_slv_xload.c:li_can_slv_uload_data_from_buffer"]}
{"id": "C06", "title": "lcsa_add_module returning OK means the module was completely configured", "statement": "If lcsa_add_module returns OK then every synchronous receive object of the module has a message object. This is false of the code: when message objects run out the error is only put into the error queue and OK is returned; provable part: when enough message objects are free the module is completely configured. Proved exactly for a controller that accepts all objects: a registration puts nothing into the error queue if enough message objects are free, and exactly one error 0x5023 if not; the value returned is the same in both cases.", "quantifier": "all states, all modules", "why_tests_cant": "failure appears only for particular combinations of object counts and prior allocations", "anchors": ["source/config/io_can_config.c:can_config_add_module", "source/config/io_can_config.c:can_config_set_module"]}
{"id": "C53", "title": "Module numbers stay different after a number change", "statement": "After a module number change no two registered modules have the same number. False: the new number is not compared with the other rows, two modules then transmit with the same identifiers (concrete history); proved when the new number is unused. Proved exactly: the numbers are all different after the change if and only if no other registered module has the new number.", "quantifier": "all reachable module tables, all rows, all new numbers", "why_tests_cant": "unbounded registration histories and all new numbers", "anchors": ["source/config/io_can_config.c:li_can_slv_config_change_module_nr_and_identifiers", "source/sys/io_can_sys.c:can_sys_msg_rx"]}
{"id": "C114", "title": "The upload keeps the delay the master asked for", "statement": "An upload of a block by li_can_slv_uload_data_from_buffer leaves at least the delay requested by the master (in milliseconds) per message. Proved when a tick is a millisecond and the tick counter does not wrap: from the start of the upload to the last message at least (delay + 1) ticks pass per message. False otherwise: the delay in milliseconds is added to the tick counter without conversion, so with ticks of 0.1 ms the messages come ten times too fast, and at the wrap of the counter they are sent without any delay (concrete cases).", "quantifier": "all data, all delays, all clocks, all states of a transfer", "why_tests_cant": "depends on the tick length of the target and on the counter value, which wraps after 49 days", "anchors": ["source/xload/li_can_slv_xload.c:li_can_slv_uload_data_from_buffer", "source/xload/li_can_slv_xload.c:li_can_slv_uload_start_request2"]}
{"id": "C115", "title": "Only transfer messages and functions change a transfer", "statement": "A running download or upload is changed by transfer messages and transfer functions only: over any history of other inputs - process data, system messages, tunnel messages and data, application calls, ticks of any size, bus errors and searches, a second initialisation - buffer, counters, component, delay and handlers of the transfer stay the same. In particular a transfer does not end by itself: if its master disappears, the next start request is answered with DLOAD_IN_PROGRESS however long ago that was. Assumed: the tunnel's port callbacks do not themselves call transfer functions.", "quantifier": "all histories of inputs unrelated to transfers, all states, all tick values, all callbacks", "why_tests_cant": "claims the absence of an effect over histories of any length, including every interleaving with tunnel and system traffic", "anchors": ["source/xload/li_can_slv_xload.c:li_can_slv_xload_active", "source/xload/li_can_slv_xload.c:li_can_slv_dload_start_request2", "source/xload/li_can_slv_xload.c:li_can_slv_uload_start_request2", "source/async/io_can_async.c:can_async_rx"]}
{"id": "C116", "title": "A started node has a module", "statement": "With LI_CAN_SLV_UNKNOWN_MODULE, lcsa_start never leaves a node without module: if the application has registered none, the first row of the table becomes a module of type UKWN with the prepared number of the main module (125 if that one is not 2..124) and no process data; other rows and application objects are untouched, a second lcsa_start adds nothing, and every history with the option equals one without it in which the application registers that module itself. If a module is registered the table stays as it is. The last sentence holds when the controller accepts all message objects; it is false when it refuses one: a registration that was answered with OK is not counted, and a substitute with number 126 appears beside it.", "quantifier": "all states reached by any registrations and table calls, all configurations, all controllers, all histories", "why_tests_cant": "the option is off in the test build; the exception needs a refusing controller", "anchors": ["source/config/io_can_config.c:can_config_add_ukwn_module", "source/config/io_can_config.c:can_config_add_module", "source/api/li_can_slv_api.c:lcsa_start"]}
{"id": "C117", "title": "The bytes of the transfer info: every write is accepted by the next start", "statement": "With the info structure packed (GCC and IAR compilers), in each of its three build variants, for every enumeration size, alignment, byte order and every checksum the application supplies: whatever the memory held at power-up and whatever info functions were called, the next li_can_slv_xload_info_init accepts the info and changes no byte. In every layout, packed or not, a setter changes its own member only and the getter returns exactly what was set; an info that is rejected reads mode RUNNING afterwards, while baud rate, reset reason and errors keep their unverified bytes. With a compiler that does not pack the structure and adds padding behind the checksum, the checksum is computed over itself and a written info is accepted only if its sum happens to be the start value.", "quantifier": "all platforms (sizes, alignments, byte orders), variants, checksum functions, memory contents and histories of calls", "why_tests_cant": "tests run on one compiler and layout; the claim is over all layouts and all checksum functions, and the failing layout does not occur on the test host", "anchors": ["source/xload/li_can_slv_xload_info.c:li_can_slv_xload_info_check_crc", "source/xload/li_can_slv_xload_info.c:li_can_slv_xload_info_update_crc", "source/xload/li_can_slv_xload_info.c:li_can_slv_xload_info_init", "source/xload/li_can_slv_xload_info.c:li_can_slv_xload_info_clean"]}
{"id": "C118", "title": "No unset pointer of the module table is ever dereferenced or called", "statement": "Memory safety of the slave over its whole life. (1) If in every registered template and every type-change template all four receive and transmit entries are set, then after any history of inputs, including repeated lcsa_init, registrations that fail, number and type changes by the application or the master, arbitrary frames, transfers, tunnel traffic and a driver that refuses anything at any time, the stack has used no NULL data pointer, called no NULL conversion and programmed no message object outside the controller's table. (2) If the templates only have the entries of their own objects set (as the templates in the repository), the same holds after one successful lcsa_init as long as it is not called again, type-change templates are completely filled and frames arrive at message objects whose filter accepts them. In both cases a number is only changed for a module that exists.", "quantifier": "all configurations, templates, histories of inputs of the whole stack, driver and application behaviours", "why_tests_cant": "a NULL is used only after particular combinations of re-initialisation, type change, number change and received frames; the number of such histories is unbounded", "anchors": ["source/sync/io_can_sync.c:can_sync_rx_data_main", "source/sync/io_can_sync.c:can_sync_tx_data_main", "source/core/io_can_main.c:can_main_sync_send_process_data", "source/config/io_can_config.c:can_config_change_module_type", "source/config/io_can_config.c:can_config_set_module"]}
{"id": "C119", "title": "The monitor CPU of a two-CPU device never transmits", "statement": "With LI_CAN_SLV_MAIN_MON both CPUs run the same stack on the same bus. On the CPU that reports CAN_MAINMON_TYPE_MON no history of calls and received frames (process requests, status, version and number-change requests, system errors waiting in the queue, registration, re-initialisation, start, error handling) makes the stack give a frame to the driver.", "quantifier": "all configurations, driver and application behaviours, histories of API calls and received frames of the monitor CPU", "why_tests_cant": "each transmit path has its own test for the CPU type; a test visits single paths, the claim is about all of them after any history", "anchors": ["source/sync/io_can_sync_handler.c:can_sync_handler_rx", "source/sys/io_can_sys.c:can_sys_status_ackn", "source/sys/io_can_sys.c:can_sys_send_error_full", "source/sys/io_can_sys.c:can_sys_msg_rx", "source/config/io_can_config.c:can_config_set_module"]}
{"id": "C120", "title": "The monitor CPU after a bus error", "statement": "With LI_CAN_SLV_MAIN_MON and LI_CAN_SLV_RECONNECT: after lcsa_process saw any bus error, the monitor CPU is stopped or in listen-only mode, whatever happens, until its application calls lcsa_start or li_can_slv_set_node_mode; there is no automatic return as on the main CPU. If the driver accepts every mode the controller is then not started. Conversely, without an error, such a call or a system message with an impossible baud rate, an operational monitor CPU stays operational.", "quantifier": "all configurations with reconnect, states, histories after the error", "why_tests_cant": "the claim is about unbounded histories after the error", "anchors": ["source/arch/canpie_adapter/io_can_main_hw_handler.c:can_main_hw_handler_error", "source/api/li_can_slv_api.c:lcsa_start", "source/sys/io_can_sys.c:can_sys_msg_rx"]}
{"id": "C121", "title": "The monitor CPU mirrors the main CPU", "statement": "Two-CPU device (LI_CAN_SLV_MAIN_MON), monitor CPU initialised once, every registration successful, then any history of frames, system messages, number changes and switching on and off, with different module numbers 1..128. For each transmit object of each module exactly one message object lets the main CPU's message through; that message is converted by the conversion registered for the monitor CPU into that module's transmit data and changes nothing else, provided the module is switched on (otherwise nothing changes). For each receive object exactly one message object lets the master's message through; it goes to that module's receive data and is counted once for the process image. With LI_CAN_SLV_SYNC_CHECK_MODULE_NR_AND_DLC the first part only holds for messages as long as the receive object with the same index: the length is compared with the wrong table, so messages of a module without receive objects are never mirrored.", "quantifier": "all configurations, histories, modules, objects, contents and lengths of messages", "why_tests_cant": "the wiring of message objects is the result of the whole history of registrations and number changes; the option is not in the test build", "anchors": ["source/sync/io_can_sync.c:can_sync_rx_data_main", "source/sync/io_can_sync_handler.c:can_sync_handler_rx", "source/config/io_can_config.c:can_config_set_module", "source/config/io_can_config.c:li_can_slv_config_change_module_nr_and_identifiers"]}
{"id": "C122", "title": "Registration on the monitor CPU: what fits", "statement": "On the monitor CPU a registration needs an unused message object for every receive object, every transmit object and one for control messages, and an unused slot (four per configured module) for every receive and transmit object. If these are there nothing is reported; otherwise exactly one error is put into the queue, 0x5023 or 0x5028 depending on what runs out first, and the value returned is the same as for a success. A module the main CPU registers completely therefore need not fit on the monitor CPU.", "quantifier": "all configurations with an accepting controller, states, templates, numbers", "why_tests_cant": "depends on how much earlier registrations have used; the option is not in the test build", "anchors": ["source/config/io_can_config.c:can_config_set_module", "source/config/io_can_config.c:can_config_add_module", "source/arch/canpie_adapter/io_can_main_hw.c:can_main_hw_get_next_free_msg_obj"]}
{"id": "C123", "title": "Both CPUs of a device keep the same module table", "statement": "Two-CPU device: main CPU and monitor CPU are built with the same number of modules, serial number and voter, their applications make the same table calls (registration, silent/awake, number and type changes) in the same order and both receive the same system messages in the same order. Whatever else happens to each of them (data messages, process requests, clock, node modes, baud rates) and whatever their CAN drivers refuse, both tables then hold the same modules in the same rows: type, number, number and lengths of objects, data pointers and conversions. Without a number voter they also have the same silent/awake states; with one a CPU that runs out of message objects keeps the old state.", "quantifier": "all pairs of configurations, drivers and histories that agree on what concerns the table", "why_tests_cant": "relates two executions of two differently built programs over unbounded histories", "anchors": ["source/config/io_can_config.c:can_config_add_module", "source/config/io_can_config.c:can_config_set_module", "source/config/io_can_config.c:can_config_change_module_nr", "source/sys/io_can_sys.c:can_sys_msg_rx"]}
{"id": "C124", "title": "The answer of the main CPU reaches the monitor CPU's copy", "statement": "A two-CPU device in normal use: both CPUs initialised once, same registrations and system messages, no number or type changes of the main CPU, different data pointers and different numbers 1..128. When the main CPU answers a process request and the monitor CPU receives the frames of that answer, then for every transmit object sent the monitor CPU's copy holds what its conversion makes of exactly the bytes the main CPU's conversion made of its data; no other data and no row of the monitor CPU change. This needs the module to be switched on on the monitor CPU and, with the length check, equal lengths of the transmit and the receive object.", "quantifier": "all pairs of configurations and histories of the two CPUs, all conversions, modules and objects", "why_tests_cant": "end-to-end claim over two programs and the bus, for unbounded histories of both", "anchors": ["source/core/io_can_main.c:can_main_sync_send_process_data", "source/sync/io_can_sync.c:can_sync_rx_data_main", "source/sync/io_can_sync_handler.c:can_sync_handler_rx"]}
{"id": "C125", "title": "A module number that was given up is not used any more", "statement": "When a module has changed its number and nothing in the node refers to the old number any more (no row of the table, no transfer, no tunnel session, no waiting data frame, no prepared restart into a download), then none of the frames the node hands to the driver afterwards carries an identifier of the old number, whatever it receives and its application does, until the number is assigned again; another slave may use it. False while data frames wait, a tunnel session is open or an upload runs: they go on under the old number; and false after a second lcsa_init.", "quantifier": "all configurations, applications that use their own numbers only, histories before and after the change", "why_tests_cant": "a statement about all later frames over unbounded histories of every part of the stack", "anchors": ["source/config/io_can_config.c:can_config_change_module_nr", "source/core/io_can_main.c:can_main_sync_process_tx_data_cnfg", "source/async/io_can_async.c:can_async_send_data_to_async_data_tx_queue", "source/xload/li_can_slv_xload.c:li_can_slv_uload_data_from_buffer"]}
{"id": "C126", "title": "Process requests after number changes", "statement": "Let modules be registered, made silent, awake, active or critical, and let their numbers (completed or refused by the controller, by the application or the master) and types be changed, in any order. Then a process request is answered iff behind the place of the last transmit object of the module registered or renumbered last (set up last) there is no unused place followed by one in use; and then with exactly the frames of the modules taking part, in registration order, under their current numbers. Consequences: changing the number of a module with one to three transmit objects while a module registered later takes part with a transmit object hangs the device at the next process request; changing that of the last such module does not.", "quantifier": "all configurations, applications, controllers (accepting or refusing message objects) and histories of these calls", "why_tests_cant": "an endless loop that depends on registration order, object counts and the history of number changes cannot be excluded or characterised by sampled histories", "anchors": ["source/config/io_can_config.c:li_can_slv_config_change_module_nr_and_identifiers", "source/config/io_can_config.c:can_config_change_module_nr", "source/core/io_can_main.c:can_main_sync_process_tx_data_cnfg", "source/core/io_can_main.c:can_main_sync_send_process_data"]}
{"id": "C127", "title": "Process requests after a type change", "statement": "After the type of an awake module has been changed to an announced one (all registered modules being counted), the next process request is answered - also if the device would have hung before - with the frames of exactly the awake modules in registration order, each under its number, those of the changed module with the lengths, objects and start-up conversions of its new type. Limits (shown by counterexamples): the call also affects other modules - one set critical transmits again with foreign data, one set active while silent stops; the type change of a silent module leaves lengths and identifiers unset, so that after awakening it sends old lengths and a frame with identifier 0; a type without start-up conversions crashes.", "quantifier": "all configurations, applications and histories of registrations, mode calls, number and type changes before it", "why_tests_cant": "the answer has to be right for all histories, including those after which the device hung", "anchors": ["source/config/io_can_config.c:can_config_change_module_type", "source/config/io_can_config.c:can_config_change_module_type_add", "source/core/io_can_main.c:can_main_sync_process_tx_data_cnfg", "source/sync/io_can_sync.c:can_sync_tx_data_main"]}
{"id": "C128", "title": "The stack without automatic baud rate search", "statement": "In a build without LI_CAN_SLV_RECONNECT: lcsa_start succeeds iff the driver follows the call that starts it, and then the node is in operation at once with the configured rate and the state is RUNNING; a node in operation stays in operation whatever the bus does, as long as the application does not set the mode itself; in exchange nothing but lcsa_start, the mode call or a frame makes the stack address the controller's mode, so a controller that went bus off is never restarted by lcsa_process; every history of this build gives the same state, frames and calls as the history of the stack with search in which lcsa_start is written out as its calls and no bus error is seen, so every claim about the reachable states of the stack holds for it.", "quantifier": "all configurations, applications, drivers and histories of frames and calls", "why_tests_cant": "a second build configuration has to behave for all histories; tests only run a few of them in one configuration", "anchors": ["source/api/li_can_slv_api.c:lcsa_start", "source/core/io_can.c:li_can_slv_process", "source/arch/canpie_adapter/io_can_main_hw_handler.c:can_main_hw_handler_rx", "source/arch/canpie_adapter/io_can_main_hw_handler.c:can_main_hw_handler_error"]}
{"id": "C129", "title": "What the application learns about its modules", "statement": "After any history of registrations, silent/awake/active/critical calls, number and type changes, can_config_get_module_nr_by_type returns the current number of the first module registered with that (non-empty) type, or an error if there is none; if no other module has the type and the module takes part, the answer to the next process request (if there is one, C126) contains its frames under exactly that number. The functions taking a table position report number and silent/awake state of the modules in registration order and refuse positions outside the table; the main module is the first one registered. Limits: the empty type is found while the table is not full (number 127), and of two modules of one type only the first can be asked for.", "quantifier": "all configurations, applications, controllers and histories of these calls", "why_tests_cant": "agreement between what is reported and what is on the bus must hold after every history of changes, including refused ones", "anchors": ["source/config/io_can_config.c:can_config_get_module_nr_by_type", "source/config/io_can_config.c:can_config_get_module_nr", "source/config/io_can_config.c:can_config_get_module_silent_awake", "source/config/io_can_config.c:can_config_module_type_valid"]}
{"id": "C130", "title": "Process requests after a further lcsa_init", "statement": "lcsa_init may be called again at any time. Desired: from then on a process request is answered with exactly the frames of the modules registered since. This holds whenever nothing is left of the old send list, and what is left is exactly known: the places which were to be sent before and which are not used by a transmit object of a module registered since. So registering at least the old rows again, each with at least as many transmit objects, gives the right answer. In general the request is answered iff the send list including what is left has no gap behind the place taken for its end; otherwise the transmission loop never ends. Right after lcsa_init, before any registration, the device goes on answering for its old modules; registering a module with one to three transmit objects while something is left behind its row makes the next request hang.", "quantifier": "all configurations, applications, controllers, histories with registrations, silent/awake/active/critical calls, number and type changes before, any number of further initializations and calls after each", "why_tests_cant": "what is left depends on everything which happened before; the endless loop appears only for certain combinations of old and new registrations", "anchors": ["source/core/io_can.c:li_can_slv_init", "source/core/io_can_main.c:can_main_init", "source/core/io_can_main.c:can_main_sync_send_process_data", "source/config/io_can_config.c:can_config_init"]}
{"id": "C131", "title": "Received process data after a further lcsa_init", "statement": "lcsa_init may be called again and modules registered anew. Desired: a received process data frame is then stored for the module it is addressed to. Which module a message object belongs to is exactly known: the row which had the object in the first period in which it was used at all, for ever after. So a module gets its data iff no other row had its message object first; it does if in all earlier periods the same numbers of receive objects were registered in the same order (as far as both lists go). Otherwise its data is stored over another module's object (without the number check) or thrown away. The table has room for four entries per possible module over the whole life: once they are used up no module with a receive object is registered completely any more, while lcsa_add_module still returns OK.", "quantifier": "all configurations, any number of initializations, all registrations and other calls in each period; the first-use and the exhaustion part also for any answers of the driver, number and type changes", "why_tests_cant": "depends on what was registered before an earlier initialization; tests start from a fresh device; exhaustion only appears after several initializations", "anchors": ["source/core/io_can_main.c:can_main_msg_obj_rx_data_cnfg", "include/li_can_slv/arch/io_can_main_hw_inline.h:can_main_synchron_rx", "source/core/io_can.c:li_can_slv_init", "source/config/io_can_config.c:can_config_add_module", "source/arch/canpie_adapter/io_can_main_hw.c:can_main_hw_get_next_free_msg_obj"]}
{"id": "C54", "title": "The node keeps receiving process requests", "statement": "Desired: the message object programmed at initialisation for process requests keeps its definition. False: a number change of a module with a receive object that has no message object reprograms it to process data. This happens after a registration that failed half-way, and after a type change to a type with more receive objects (concrete histories; then no message object takes process requests any more). Exactly: after lcsa_init in any state and any calls, the object still takes process requests iff no number change of the history concerned such a module. In the whole stack, with all frames from the bus, it is kept if registrations go through and announced types have no additional receive objects.", "quantifier": "all configurations, all earlier states, all histories of table calls (lost_iff, kept); all histories of inputs of the whole stack (whole_stack)", "why_tests_cant": "unbounded histories, resource exhaustion of message objects, combination of announced type, type change and number change", "anchors": ["source/config/io_can_config.c:li_can_slv_config_change_module_nr_and_identifiers", "source/config/io_can_config.c:can_config_change_module_type", "source/arch/canpie_adapter/io_can_main_hw.c:can_main_hw_define_msg_obj"]}
{"id": "C14", "title": "The process image is valid exactly if every receive object arrived exactly once", "statement": "On a process request that follows another one, a module is reported valid iff each of its synchronous receive objects was accepted exactly once (modulo 65536, the counter width) since the last request; the 'all valid' callback fires iff all modules are valid; at the end all counters are zero again. This holds with the restrictions shown (first period, a previous request longer than one byte, a module silenced in between). Exactly, for every history without a change of type or number over the bus: the verdicts and the calls are those of a small bookkeeping of arrivals (last request's length; arrivals of each object since its count was last started anew, which happens at each request but the first and only for objects switched on at that time).", "quantifier": "all interleavings of received frames between two requests, any number of modules; C14_image and C14_calls: all histories of calls and frames after lcsa_init", "why_tests_cant": "quantifies over all frame sequences", "anchors": ["source/sync/io_can_sync.c:li_can_slv_sync_check_process_image", "source/sync/io_can_sync.c:li_can_slv_sync_check_process_image_module", "source/sync/io_can_sync.c:can_sync_rx_data_main"]}
{"id": "C132", "title": "The monitor controller during the baud rate search", "statement": "With a second (monitor) controller, both controllers have the same rate after every call or frame; when the node is operational the monitor controller takes part in the bus, and when it listens the monitor controller listens. If the driver of the main controller does as it is told, everything else behaves as without a monitor controller. Desired also: during a search the monitor controller never takes part in a bus. False: every change of the rate starts it once at the rate just left (at which errors were seen), then stops it; that is all: each processing during a search gives it no command, those of one change of rate, or those of the end of the search.", "quantifier": "all configurations, driver answers, histories of calls, frames and bus errors (the equality with the single-controller stack: drivers that accept every mode)", "why_tests_cant": "the extra start lasts only for a moment inside one call, and the rates agree or not depending on the whole history of searches, baud rate messages and application calls", "anchors": ["source/core/io_can.c:li_can_slv_set_node_mode", "source/core/io_can_reconnect.c:can_reconnect_next_baudrate", "source/core/io_can_reconnect.c:can_reconnect_off", "source/arch/canpie_adapter/io_can_mon_hw.c:can_mon_hw_enable", "source/arch/canpie_adapter/io_can_mon_hw.c:can_mon_hw_set_baudrate", "source/config/io_can_config.c:can_config_set_baudrate"]}
{"id": "C50", "title": "Reconnect finishes with a well-defined baud rate", "statement": "When a search ends, the rate reported to the application is one of the four supported rates and is the rate at which the controller was listening. False: at startup a frame received before the first switch ends the search with the rate 0 (the controller keeps its rate), or, if there was a search before, with the rate of that search's last switch: the controller leaves the rate at which it has just received a frame. Exactly: a search ends with the startup rate if neither a frame nor an error was seen since lcsa_start, and with the rate of the last switch of any search since power up otherwise.", "quantifier": "all histories of calls, frames and bus errors since power up", "why_tests_cant": "the rate depends on every earlier search of the node's life, not only on the present one", "anchors": ["source/core/io_can_reconnect.c:can_reconnect_off", "source/core/io_can_reconnect.c:can_reconnect_on", "source/core/io_can_reconnect.c:li_can_slv_reconnect_process", "source/core/io_can_reconnect.c:can_reconnect_next_baudrate"]}
{"id": "C36", "title": "Tunnel sessions do not leak data", "statement": "A new session starts with an empty transmit buffer. False: bytes not yet sent when the session closes are sent in the next session (concrete history). Exactly: from any moment on, whatever follows, the payloads of the tunnel's frames are the bytes buffered at that moment followed by the bytes written since; at most seven bytes leak unless a write is waiting for room, then eight.", "quantifier": "all histories of sessions", "why_tests_cant": "history across sessions", "anchors": ["source/async/io_can_async.c:can_async_rx", "source/async/io_can_async.c:can_async_tunnel_putc"]}
{"id": "C42", "title": "Acknowledged download block delivers exactly the announced bytes", "statement": "When a data block end is accepted, the application finds in the buffer exactly the first n payload bytes of the block in order, where n is the announced byte count. False if the announced count exceeds the received bytes: the block is still accepted (concrete cases), and with a count near 65536 even bytes that were in the buffer before are erased. Exactly: for every announced count the bytes found are given by a formula, and they are the right ones iff the count is at most the received bytes.", "quantifier": "all block contents and lengths", "why_tests_cant": "all lengths/contents; wraparound of 16 bit arithmetic", "anchors": ["source/xload/li_can_slv_xload.c:li_can_slv_dload_data", "source/xload/li_can_slv_xload.c:li_can_slv_dload_data_block_end"]}
{"id": "C44", "title": "Upload segments reassemble to the original data", "statement": "The concatenation of the data segments sent for an upload block, truncated to the announced byte count, is exactly the buffer content, and the announced object count is the number of segments. False for every block after the first one: positions and the announced count go on from the bytes sent before. Exactly: with b bytes counted so far, a call sends the data from byte b on, at least one segment, and announces the greater one of b and the length.", "quantifier": "all buffer contents", "why_tests_cant": "all lengths", "anchors": ["source/xload/li_can_slv_xload.c:li_can_slv_uload_data_from_buffer", "source/xload/li_can_slv_xload.c:li_can_slv_uload_data_block_end"]}
{"id": "C133", "title": "The frame FIFO of the driver survives interrupts inside a write", "statement": "Frames written to the driver's FIFO by the main loop are each taken by the transmit interrupt exactly once and in order, wherever in a write an interrupt comes. False: (1) if interrupts take the frame that is being written before the write has finished, the FIFO afterwards hands out frames again; this is exactly the condition: otherwise order and contents are right, and a refused write means that frames are waiting. (2) If an interrupt writes a frame itself during a write of the main loop (answer to a process request), a frame is lost and an unwritten place is sent, or a frame is written behind the array.", "quantifier": "all FIFO sizes, all histories of writes and interrupts, an interrupt between any two statements", "why_tests_cant": "interleavings of interrupts with single statements", "anchors": ["verify/canpie/source/canpie-fd/cp_fifo.c:CpFifoIncIn", "verify/canpie/source/canpie-fd/cp_fifo.c:CpFifoIncOut", "verify/canpie-fd_device/unittest_canpie-fd.c:CpCoreFifoWrite", "source/arch/canpie_adapter/io_can_main_hw.c:can_main_hw_send_msg"]}
{"id": "C134", "title": "Transfer data are accepted only during a transfer", "statement": "Data messages, block ends, ends and acknowledges are processed only while a transfer is in progress. False: whether a transfer is in progress is looked at by the four start requests only. Any sequence of other control messages, to any modules, has the same effect with and without a transfer: same return codes, same frames, same calls of the application, same buffer and counters. So a master that goes on after a termination gets its blocks acknowledged. What holds: after a termination or an end acknowledge and until the next start request the handlers for blocks, ends and block acknowledges are only called with a component without name, unless the application writes a name into it.", "quantifier": "all states, all sequences of control messages without start requests, all module numbers, all application behaviours", "why_tests_cant": "absence of a check: two runs from different states must agree for every message sequence", "anchors": ["source/xload/li_can_slv_xload.c:li_can_slv_dload_data", "source/xload/li_can_slv_xload.c:li_can_slv_dload_data_block_end", "source/xload/li_can_slv_xload.c:li_can_slv_dload_end", "source/async/io_can_async.c:can_async_rx"]}
{"id": "C135", "title": "Switching a module in the main loop is safe against process requests and number changes from the receive interrupt", "statement": "While the main loop switches a module silent or awake, process requests and number changes may arrive in the receive interrupt at any point: every frame carries the data the application's conversion made for the object of its identifier, and the send register ends as if one of the two had run after the other. False: switching on sets the bit of an object in the send register before its conversion is entered, a request in between is answered with the data of another module or with stack contents under the module's identifier; and the send register is read, changed and written back without protection, a number change in between which makes another module silent (or awake) is undone: the silent module answers, with the data of other modules, the awake one does not. What holds: during switching off every frame of every request is right; during switching on all frames except that of the object between its two writes are right, and that one carries the buffer contents; the bits of other modules do not change if only process requests arrive.", "quantifier": "all environments, all module tables with the conversions of the set bits entered, all rows, all interleavings of the steps of the call with process requests", "why_tests_cant": "a race: the outcome depends on the instruction at which the interrupt comes; tests run the call without interruption", "anchors": ["source/config/io_can_config.c:can_config_sync_on", "source/config/io_can_config.c:can_config_sync_off", "source/config/io_can_config.c:can_config_set_module_silent_awake", "source/core/io_can_main.c:can_main_sync_send_process_data"]}
{"id": "C136", "title": "A baud rate search ended by a frame ends with the rate the frame was received at", "statement": "When the automatic baud rate search acts on a received frame, the controller runs at the rate that frame was received at; in particular a search ended by a frame leaves the node operational at a rate at which a valid frame was seen. False with the receive interrupt where it may come: the error handler passes the flag 'message pending' by value, a frame received after that and before the next rate is set stays pending over the change and ends the search with the next rate of the table, at which only errors were seen. What holds: if no frame comes between the read of the flag (or its reset when a search begins) and the following rate change the claim is true; in all cases the frame was received at the final rate or at the rate in force just before the last change.", "quantifier": "all environments, all start states without a search, all interleavings of errors, error handler steps and received frames", "why_tests_cant": "a race between the receive interrupt and the background; tests call the functions one after the other", "anchors": ["source/arch/canpie_adapter/io_can_main_hw_handler.c:can_main_hw_handler_error", "source/arch/canpie_adapter/io_can_main_hw_handler.c:can_main_hw_handler_rx", "source/core/io_can_reconnect.c:li_can_slv_reconnect_process", "source/core/io_can_reconnect.c:can_reconnect_next_baudrate"]}
{"id": "C137", "title": "The reported process period is right although requests arrive during the calls", "statement": "li_can_slv_sync_get_process_periode returns the time between the last two process requests or the longest time without a request that li_can_slv_process found since, whichever is longer, limited to 100 ms, also if requests arrive in the receive interrupt while li_can_slv_process or the call itself runs. False: a request between the reading of the clock and that of the time stamp makes the difference negative and the period 100 ms although requests come regularly (with the other order of the two readings: a time that never passed); a request after the comparison is overwritten by a shorter time (a loss is hidden); a request between the check against the maximum and the return makes the function return more than the maximum; one between the check and the clamping is replaced by the maximum. What holds, for all histories: if the last request came between two calls or at the entry of one the value is right, whatever earlier requests disturbed; the maximum is kept for requests at all points but one; a request between the computation of the time and the comparison does no harm.", "quantifier": "all environments (tick conversions), all states, all interleavings of calls, single accesses and requests, all clock readings", "why_tests_cant": "races between single variable accesses; tests run calls and interrupts one after the other", "anchors": ["source/sync/io_can_sync.c:li_can_slv_sync_trigger_process_periode", "source/sync/io_can_sync.c:li_can_slv_sync_get_process_periode", "source/sync/io_can_sync.c:can_sync_rx_process_main", "source/core/io_can.c:li_can_slv_process"]}
{"id": "C138", "title": "A number change by the application is atomic for process requests", "statement": "While lcsa_change_module_nr_and_identifiers runs in the main loop, every process request arriving in the receive interrupt is answered completely, wholly under the old or wholly under the new number of the module, with the data of its objects, and by a silent module not at all. False: a request that comes while the identifiers are being written is answered mixed (first objects new, others old); a silent module answers, under its new number, with the data of the module before it, until the call makes it silent again; after an earlier number change of a lower row the answer to a request in that window never ends, although requests before and after the call are answered. What holds, for all interleavings: for the last module, awake, every request is answered, by the same objects, each frame with length and data of its object, new identifiers exactly for the objects whose identifiers the main loop has written; for a silent module the frames of the others are right, and wrong frames come only for objects whose identifier is written, under the new number, with old contents of the frame buffer.", "quantifier": "all environments, all tables, all new numbers 1..127, all interleavings of the call's accesses with process requests", "why_tests_cant": "races between single variable accesses; tests run calls and interrupts one after the other", "anchors": ["source/config/io_can_config.c:li_can_slv_config_change_module_nr_and_identifiers", "source/core/io_can_main.c:can_main_sync_process_tx_data_cnfg", "source/core/io_can_main.c:can_main_sync_send_process_data"]}
{"id": "C139", "title": "A process request that reaches both controllers at once is judged exactly once", "statement": "With a monitor controller, one process request on the bus raises a receive interrupt on the main and on the monitor controller. Whichever handler interrupts the other, the process image of the period before is judged exactly once, and the request is noted for both controllers, as if one handler had run after the other. False: if the monitor's handler comes between the first condition of the main controller's check and the clearing of the image, or the main controller's handler after both flags were tested by the monitor's, the request noted by the interrupting handler is forgotten, in any state; if it comes while modules are being judged, every module still to be judged with an object switched on is found not valid although everything arrived (the valid and the not-valid callbacks are both called); just before the clearing everything is found valid twice. When the monitor's request was forgotten and the main controller's handler comes first, no verdict is given for the next two periods. What holds: at all places before these and after the check the result is exactly that of the two handlers one after the other.", "quantifier": "all environments, all states with both requests of the last period seen (the negative results: all states), all places of the interruption between two pieces of the handler, both controllers as the interrupted one", "why_tests_cant": "nested interrupts at a given statement cannot be produced by calling the handlers; tests call them one after the other", "anchors": ["source/sync/io_can_sync.c:li_can_slv_sync_check_process_image", "source/sync/io_can_sync.c:can_sync_rx_process_main", "source/sync/io_can_sync.c:can_sync_rx_process_mon", "source/sync/io_can_sync_handler.c:can_sync_handler_rx_mon"]}
{"id": "C140", "title": "The transfer buffer delivers the bytes received although data arrive while it is read", "statement": "While the application reads the download buffer with xload_buffer_get_byte in its main loop, data frames are added to it in the receive interrupt and the end of a block removes trailing bytes. The application reads exactly the bytes received, in order, and a read finds the buffer empty only if everything was read. False: bytes received between the reading and the writing of nr_bytes in the read are never counted, so exactly that many received bytes can never be read, and later frames are accepted although the buffer is full and overwrite unread bytes; a block end during a read can leave a count of 65535. What holds: with frames at all other moments and block ends outside reads everything is as claimed, and with frames at any moment the bytes read are right as long as the unread ones fit, short by exactly the uncounted ones.", "quantifier": "all buffer sizes up to 65535, all histories of reads, data frames of any length and block ends, all moments of the interrupts between two accesses of a read", "why_tests_cant": "a lost update needs an interrupt between the read and the write of one counter", "anchors": ["source/xload/li_can_slv_xload_buffer.c:xload_buffer_get_byte", "source/xload/li_can_slv_xload_buffer.c:dload_add_byte_to_buffer", "source/xload/li_can_slv_xload_buffer.c:dload_remove_bytes", "source/xload/li_can_slv_xload.c:li_can_slv_dload_data"]}
{"id": "C141", "title": "Tunnel data are sent for the session they were written in although session messages arrive during the calls", "statement": "While the port writes bytes with the tunnel's putc, the tunnel is processed or the application shuts it down in the main loop, messages that open and close sessions are handled in the receive interrupt. Data are taken and sent only in an active session and under the number of its module, a close request goes from that module to its partner, and an open request is denied only if there is a session. False: an object that is complete or waits for room when the session is closed is sent after the acknowledged close under number 125 (identifier 0x7F3), or to the partner of the next session; a shutdown hit by the partner's close sends a close request from module 125 to module 125 and blocks the tunnel: every open request is denied, whatever happens, until somebody sends a close request. What holds: everything claimed if session messages come between the calls; and always that no byte is lost, doubled or moved, that every object has one to eight bytes, and that its number is that of the last session opened, or 125 if closed, some session messages ago.", "quantifier": "all histories of calls, session messages with all numbers and replies of the port, processing in the receive interrupt, all moments of the interrupts, all waiting times and refusals of the queue", "why_tests_cant": "an interrupt must hit between the test of the session and its use; the blocking is a statement about all continuations", "anchors": ["source/async/io_can_async.c:can_async_tunnel_putc", "source/async/io_can_async.c:can_async_tunnel_process_tx_data", "source/async/io_can_async.c:can_async_tunnel_shutdown", "source/async/io_can_async.c:can_async_rx"]}
{"id": "C142", "title": "An upload sends the data of the block although messages of the master arrive while it runs", "statement": "While the application sends a block with the upload function, messages of the master are handled in the receive interrupt and use the same counters and the same module number. The messages sent are the bytes of the block from the current position in order, under the number of the module of the transfer, then a block end with all bytes and the number of messages; after the master's termination or end acknowledge nothing more is sent; and no byte outside the caller's data is read. False: stops are ignored by the running upload; download data for any module of the node, even if refused later, make it skip seven bytes of the block, announced as sent, or, between the test of the counter and the reading of the byte, read outside the caller's data; a start request to another module of the node moves the running block there, from its beginning. What holds: everything but the stop as long as only stops and start requests that are refused or name the same module arrive; and no byte outside the data is read unless download data arrive exactly between test and reading.", "quantifier": "all blocks below 65536 bytes, all counters, numbers and messages, all moments of the interrupts, all waiting times of the driver", "why_tests_cant": "an interrupt must hit between two accesses to a counter; the safety of the memory is a statement about all other moments", "anchors": ["source/xload/li_can_slv_xload.c:li_can_slv_uload_data_from_buffer", "source/xload/li_can_slv_xload.c:li_can_slv_uload_data_block_end"]}
{"id": "C143", "title": "A reset in the middle of a write of the transfer info leaves the old info, the new info or a rejected one", "statement": "The transfer info (mode, component, baud rate, user bytes) lies in memory that survives a reset. If a reset comes in the middle of a call that writes it, at any byte, the next li_can_slv_xload_info_init finds exactly the info before the call or exactly the info after it, or rejects what it finds with BAD_CRC. False for the component: with the usual CRC-16 a mixture of the old and the new component can be accepted. What holds: with every 16-bit cyclic redundancy check the claim holds for every call that changes at most two neighbouring bytes, so for the mode, the reset reason, the baud rate and the user bytes; and for every call and every checksum a torn info is accepted only if the checksum of the old info happens to be also that of the torn one.", "quantifier": "all platforms, byte orders and enumeration sizes, all three variants of the packed structure, all memory contents, all calls and arguments, all mixtures of old and new bytes, all checksums (exact part), all CRC-16 with any polynomial with the term 1, any bit order, start value and reversible final treatment", "why_tests_cant": "the reset may come between any two byte stores; detection by the checksum is a statement about all contents and lengths", "anchors": ["source/xload/li_can_slv_xload_info.c:li_can_slv_xload_info_init", "source/xload/li_can_slv_xload_info.c:li_can_slv_xload_info_update_crc", "source/xload/li_can_slv_xload_info.c:li_can_slv_xload_info_set_dload_component", "source/xload/li_can_slv_xload_info.c:li_can_slv_xload_info_set_mode"]}
{"id": "C144", "title": "No frame is acted on from the begin of a search to 20 ms after its end, with the receive interrupt at any moment", "statement": "With the option to ignore frames for a time after a search, no frame received from the begin of a baud rate search to 20 ms after its end has any effect, at whatever moment of the work of li_can_slv_process the receive interrupt comes. In particular no message is answered before the application has been told that the search is over. False: the function that ends the search first declares the search over, then reports it, calls the application's function and only then puts down the time of the end. A frame between the two is measured against the end of the search before, so it is served (also the first search of all: the time is then 0), while a frame some milliseconds later is ignored. What holds: the exact set of ignored frames at each moment; if no frame arrives between the two stores, all others up to 20 ms after the end have no effect but to set a flag.", "quantifier": "all platforms, both variants of the option, all states of a search about to end, all causes, all received frames, all moments and numbers of interrupts, all values of the tick counter", "why_tests_cant": "the window is some microseconds plus the run time of the application's function; a frame has to arrive in it", "anchors": ["source/core/io_can_reconnect.c:can_reconnect_off", "source/core/io_can_reconnect.c:li_can_slv_reconnect_get_back_time_ms", "source/arch/canpie_adapter/io_can_main_hw_handler.c:can_main_hw_handler_rx"]}
{"id": "C145", "title": "Flow control messages belong to the session, with session messages arriving at any moment", "statement": "The functions XON and XOFF that an opened tunnel hands to the port send their message on behalf of the module of the active session to the partner of that session; without an active session they send nothing and return WRONG_STATE. This holds at whatever moment of the call a session message is received. False: the call reads the state, the partner and the module one after the other; if the session is closed in between, the message is sent by module number 125, and if another session is opened, the old partner is addressed under the module number of the new session and the new partner is not stopped. What holds: exactly which partner and module the message carries; the claim itself if session messages come between the calls.", "quantifier": "all sequences of flow control calls, shutdowns and session messages (open, close, acknowledge, deny) of any modules and partners, all answers of the port, all moments of the receive interrupt", "why_tests_cant": "the session has to change between two neighbouring instructions of the call", "anchors": ["source/async/io_can_async.c:can_async_xon", "source/async/io_can_async.c:can_async_xoff", "source/async/io_can_async.c:can_async_rx"]}
{"id": "C146", "title": "A verdict on a module comes from one process period, with a baud rate search in between", "statement": "At a process request a module is found valid iff each of its receive objects was on the bus exactly once since the request before. Desired also if a baud rate search begins and ends in between. False: a search clears nothing, and requests received during it are ignored, so the frames before the search and those after it are counted as one period although requests were on the bus between them: a module is found valid whose objects were each missing in one of the periods; and a frame received during the search is missed. What holds, exactly and in every history of the whole stack since power-on (with transfers, the tunnel, changes of type and number, further calls of lcsa_init): the verdicts are those of a bookkeeping that skips the frames received during a search; during a search all verdicts stay as they were; without a search between the two requests the claim is true (counts modulo 65536, previous request of at most one byte, module not switched on in between).", "quantifier": "all histories of received frames, cyclic calls, searches and API calls since power-on", "why_tests_cant": "depends on where in the period the search begins and ends, with arbitrarily many periods ignored in between", "anchors": ["source/sync/io_can_sync.c:li_can_slv_sync_check_process_image", "source/sync/io_can_sync.c:li_can_slv_sync_clear_process_image", "source/arch/canpie_adapter/io_can_main_hw_handler.c:can_main_hw_handler_rx", "source/core/io_can_reconnect.c:can_reconnect_off"]}
{"id": "C147", "title": "Both controllers act on a frame or none does", "statement": "With a monitor controller a frame on the bus raises an interrupt at each controller. Desired: both act on it or both ignore it, also while a baud rate search runs, ends, or has just ended; otherwise the counts of the two controllers differ and the module is found not valid. False: each receive function looks at the state of the search and at the clock by itself, so when the search (or the 20 ms of the option LI_CAN_SLV_RECONNECT_IGNORE_RX_AFTER_RECONNECT_FOR_A_TIME) ends between the two interrupts of one frame only the second controller counts it and the module is found not valid though every frame was right; and the monitor has no test for extended frames: one delivered by the driver is taken for the standard frame its identifier is cut to. What holds: a standard frame whose two interrupts see the same search state and the same side of the time limit is acted on by both or by none; and in every history the slave behaves exactly as without the receive functions on the frames that they let pass.", "quantifier": "all histories of interrupts at both controllers, calls and changes of the search variables; with and without the option; any way of cutting an extended identifier", "why_tests_cant": "depends on a search ending between two interrupts that are microseconds apart", "anchors": ["source/arch/canpie_adapter/io_can_mon_hw_handler.c:can_mon_hw_handler_rx", "source/arch/canpie_adapter/io_can_main_hw_handler.c:can_main_hw_handler_rx"]}
{"id": "C148", "title": "Control messages handed over through a queue arrive once and in order", "statement": "With CAN_ASYNC_CTRL_RX_QUEUE the receive interrupt enters control messages in a queue that the port empties. Desired: the port handles exactly the accepted messages, in order; at most CAN_ASYNC_CTRL_RX_QUEUE_LENGTH wait; a message is refused with an error only if the queue is full; what is dropped silently (module unknown or silent) would have had no effect. This holds if no message arrives while the port is between reading the exported counter can_async_rx_queue_state and writing it back. False otherwise: interrupt and port both change the counter, an increment in between is undone, the message is accepted but not seen, and a later one overwrites it without an error and is handled before an older one.", "quantifier": "all histories of messages and steps of the reader, all queue lengths, any module table at each message", "why_tests_cant": "needs an interrupt between two instructions of the reader, and the damage shows several messages later", "anchors": ["source/async/io_can_async.c:can_async_send_data_to_async_ctrl_rx_queue", "source/config/io_can_config.c:can_config_module_nr_valid", "source/async/io_can_async.c:can_async_rx"]}
{"id": "C149", "title": "The monitor CPU is told the bit rate the node works with", "statement": "With two CPUs (LI_CAN_SLV_MAIN_MON) the main CPU tells the monitor CPU the bit rate by li_can_slv_port_sync_baudrate. With search: lcsa_process tells a rate exactly in the calls in which a search ends, lcsa_start exactly in the download state; the node is then in operation at that rate if it is one of the four rates. So whenever no search is under way the rate told last is the rate of the controller, as long as only lcsa_start and lcsa_process change it. False at a power-on with traffic: the frame received ends the search with the rate 0 (C50), the monitor CPU is told 0 and the controller keeps the startup rate. Without search: false. lcsa_start tells the current rate before it sets the startup rate: after power-on the monitor CPU is told the rate 0, later the rate before the start.", "quantifier": "all histories of the stack from power-on without lcsa_set_mode requests, all bus states and error codes, all start-up rates", "why_tests_cant": "the rate told has to agree with the controller after every search, whatever errors and frames led to its end", "anchors": ["source/core/io_can_reconnect.c:can_reconnect_off", "source/api/li_can_slv_api.c:lcsa_start", "source/core/io_can_reconnect.c:li_can_slv_reconnect_process"]}
{"id": "C150", "title": "The I/O configuration function called for a module type is that of the type", "statement": "With LI_CAN_SLV_MODULE_IO_CONFIG each module is added with an I/O configuration (crc, date, function). After every history of additions, settings, number changes, type changes, silent/awake calls and process requests: can_config_call_ioconfig_set for a type calls the function which the first module that has the type now was added with, and finds no module exactly if none has the type; can_config_get_ioconfig gives for each module the configuration of its addition with the last can_config_set_ioconfig that reached it. If no type is changed and every type comes with its function, the function called for a type is the function of the type. False after a type change: the configuration stays in the row, so the function of the old type is called for the new type. Of two modules of a type the second is reached by no setting and no call.", "quantifier": "all histories of table calls from power-on, all templates and configurations, all types", "why_tests_cant": "the configuration is found by a search for the type in a table which every call may change", "anchors": ["source/config/io_can_config.c:can_config_set_ioconfig", "source/config/io_can_config.c:can_config_call_ioconfig_set", "source/config/io_can_config.c:can_config_get_ioconfig", "source/config/io_can_config.c:can_config_set_module"]}
