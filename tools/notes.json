{
 "C20": {
  "note": "False of the code as stated: exact characterisation of the out-of-bounds histories plus a concrete one; safe part proved."
 },
 "C52": {
  "note": "False of the code in general (counterexample); proved when the read position is 0 or the queue is full. C52_peek_exact and C52_peek_right_iff are exact."
 },
 "C39": {
  "note": "Proved for reads between store and restore; a counterexample shows adds in between must be excluded."
 },
 "C06": {
  "note": "False of the code (C06_counterexample); proved when enough message objects are free and the driver accepts. C06_reported_iff is exact."
 },
 "C10": {
  "note": "False after a number change (C10_counterexample); exact characterisation C10_exact; proved for all histories without number/type changes. C126 decides it for every history with number changes."
 },
 "C11": {
  "note": "False in general (three counterexamples); proved for the histories stated in SilentOff."
 },
 "C13": {
  "note": "Stays out until one of the listed wake-up operations; the documented 'no way back' is refuted."
 },
 "C29": {
  "note": "False of the code: unknown pair writes outside the table (C29_counterexample); for registered pairs only that row changes and identifiers are renumbered."
 },
 "C53": {
  "note": "False of the code (C53_counterexample); proved if the new number is unused. C53_distinct_iff is exact."
 },
 "C54": {
  "note": "The desired statement is false (C54_counterexample, C54_counterexample_type). C54_lost_iff says exactly when the object is lost (driver accepts all definitions); C54_kept needs no assumption on the driver; C54_whole_stack_partial covers every input of the stack under the rules stated there."
 },
 "C55": {
  "note": "False for a second initialisation (C55_counterexample); proved for the first. C55_exact: what a second initialisation leaves, and that the same frames are transmitted."
 },
 "C27": {
  "note": "False for errors of silent or removed modules (C27_counterexample); proved exactly which errors are sent, in order, and that the queue is emptied."
 },
 "C30": {
  "note": "False of the code (C30_counterexample: OK is returned for unsupported rates); what does happen is proved for all states and histories."
 },
 "C14": {
  "note": "C14_valid_iff_once_partial: the statement between two requests, with restrictions; counterexamples beside it. C14_image and C14_calls: exact verdicts, counts and calls in every history without a change of type or number over the bus."
 },
 "C56": {
  "note": "False if the maximum period does not fit 16 bits of ticks (counterexample); proved otherwise. C56_exact, C56_seen_iff: exact value and exact condition."
 },
 "C42": {
  "note": "C42_exact and C42_right_iff: every announced count below 65536. C42_counterexample: a block end announcing more bytes than received is acknowledged. C42_counterexample_erased: 65535 bytes announced for a block of 7, the block and an earlier byte are lost, and it is acknowledged. C42_partial: the desired statement for announced counts up to the received bytes; wrong object count proved separately."
 },
 "C43": {
  "note": "False: the refused second request ends the running transfer (C43_counterexample). Proved: it is refused, answered with the error and buffer and counters are unchanged. C43_exact, C43_goes_on: only the name and the busy mark are lost; blocks are still handed over and acknowledged."
 },
 "C44": {
  "note": "C44_exact: any call, whatever was sent before. C44_later_block: after any number of blocks. False for a second block (C44_counterexample). C44_partial: first block and continued uploads from one buffer."
 },
 "C58": {
  "note": "False at the wrap of the tick counter (C58_counterexample); proved for clocks that exceed every waited-for value. C58_returns_iff is exact for arbitrary clocks."
 },
 "C46": {
  "note": "Reset of corrupted memory proved for all fields but the baud rate, which is kept and made CRC-valid (C46_counterexample)."
 },
 "C59": {
  "note": "False of the code (C59_stuck, C59_counterexample); proved while fewer than four frames wait."
 },
 "C34": {
  "note": "False for a connection type other than 0 (C34_counterexample, C34_exact); proved for type 0 and for refusals by the port."
 },
 "C36": {
  "note": "C36_exact: for any two moments of any history. False in its desired form (C36_counterexample: bytes left over by a closed session are sent in the next one); C36_partial: proved from every moment at which nothing is buffered."
 },
 "C60": {
  "note": "False for close and reset (C60_counterexample); proved for XON, XOFF, close acknowledge and close denial. C60_close, C60_reset: exact effect of the two commands that anybody may send."
 },
 "C61": {
  "note": "False (C61_counterexample); proved that exactly the payload of the data object is handed over, once."
 },
 "C62": {
  "note": "\"Not before\" is false (C62_counterexample); proved that the object is handed over once the tick is beyond the compared value. C62_exact, C62_rest_iff: exact condition."
 },
 "C48": {
  "note": "For histories in which the application does not set the node mode itself."
 },
 "C49": {
  "note": "Order, coverage and progress of the switches."
 },
 "C50": {
  "note": "C50_exact: the rate in every history, as a function of the history alone. C50_partial: the desired statement for every search with at least one switch and for a startup without traffic. C50_counterexample: rate 0 reported. C50_counterexample_stale: started again after an online search that ended at 500 kbit/s, a frame is received at 250 kbit/s and the node goes to 500 kbit/s."
 },
 "C63": {
  "note": "C63_counterexample: a frame queued during the startup search is handed to the driver. Proved: received frames are only noted; the queue is silent in the listening part. C63_exact, C63_listening: the queue in each state of the search."
 },
 "C64": {
  "note": "C64_counterexample: startup with LI_CAN_SLV_RECONNECT_PROCESS_STARTUP_CHECK_LEC. Proved for online searches."
 },
 "C65": {
  "note": "C65_counterexample: tick counter wraps within the startup time. Proved otherwise."
 },
 "C68": {
  "note": "C68_counterexample: the driver refuses the definition, the session is granted and the wide filter stays. Proved for an accepting driver."
 },
 "C74": {
  "note": "C74_counterexample: refused version request, data for another module, info request. Proved for answered version requests. C74_unbound: data, block end and end are not bound to a module."
 },
 "C75": {
  "note": "Both orders of the requests. Missing: requests longer than one byte, number 129 and above, modules switched during the period, incomplete registrations; counterexamples for the first and third and for late frames of the monitor."
 },
 "C76": {
  "note": "Proved for completed registrations without number change; C76_counterexample_unwatched."
 },
 "C77": {
  "note": "C77_counterexample_stale shows the consequence: validity survives the loss of a controller and of all data."
 },
 "C79": {
  "note": "Modes operational and listen with an accepting driver; counterexamples for stopped, refusal and baud rate."
 },
 "C82": {
  "note": "C82_counterexample_same_type: the second module of a type has no valid-time function."
 },
 "C85": {
  "note": "Proved for at most four modules (a fifth one without a valid number gets 129), templates of at most eight bytes, a voter admitting numbers 1..128 and application calls with numbers up to 128. Without a voter one bus message sets number 0: answers with identifier 65535, sent as 0x7FF (C85_counterexample_number_zero); a template of nine bytes overflows the driver message (C85_counterexample_long_template)."
 },
 "C86": {
  "note": "C86_counterexample_serials: serial numbers 1 and 65537 give the same delays for ever."
 },
 "C87": {
  "note": "Counterexamples: odd length (stale byte), 16-bit numbers through the nibble functions."
 },
 "C89": {
  "note": "Partial: the transmit half holds for a direct call with the whole object. The stack hands over a copy of eight bytes, beyond which all three transmit conversions read (C89_counterexample_transmit_copy)."
 },
 "C90": {
  "note": "Partial: for messages of at most eight bytes, control messages of exactly eight. Shorter control messages are completed by uninitialised bytes, which reach the bus; a length code above eight copies nothing; identifier and bytes may be of two different messages; remote frames are handled as data frames (four counterexamples). C90_eleven_bits: the low bits of the identifier only."
 },
 "C92": {
  "note": "Online searches: RECONNECT during, RUNNING after (online); RECONNECT only during a search (reconnect); lcsa_start reports RUNNING (startup_running). False otherwise: RUNNING while the startup search only listens, INIT after it though operational, RECONNECT for ever if the driver refuses the change back (counterexamples)."
 },
 "C93": {
  "note": "Holds with a driver that does as it is told and no lcsa_start during a search. Otherwise false: a refused change back ends the search without a word; lcsa_start drops a running online search (counterexamples)."
 },
 "C94": {
  "note": "Holds for numbers distinct within the node, no exchange of types, no frame to 125..127 unless the node uses that number, and no frame before the first registration. Otherwise false: unused rows answer for 125..127, a type change while silent leaves identifiers unset (frame with identifier 0), errors without a module are sent as 125 (counterexamples)."
 },
 "C95": {
  "note": "Same hypotheses as C94. Default numbers of rows 4..7 (129..132) break it (counterexample)."
 },
 "C96": {
  "note": "Lock and data accesses step by step; proved for preemption (a context runs only when those that interrupted it have ended). The counterexample shows a byte lost and the lock stuck with time slices. The tunnel state itself (mod_own, open/close) is not in the guarded data."
 },
 "C97": {
  "note": "Proved for preemption; the guarded code is an arbitrary step function on arbitrary shared data. Counterexamples without the option and with time slices."
 },
 "C98": {
  "note": "One access per step, interrupts execute complete calls. Politeness of the interrupts is a hypothesis (counterexamples for each violation), count++/count-- single instructions (counterexample), histories with the index overrun of C20 excluded."
 },
 "C99": {
  "note": "False in general (counterexample). Proved: the exact budget (the first k changes succeed, k unused message objects; all later ones fail) and reachability after a successful change. The positive parts assume that the driver accepts every definition of a message object."
 },
 "C100": {
  "note": "Induction over the objects of the module; the frame part uses the invariants of the reachable states."
 },
 "C101": {
  "note": "Induction over the calls; the checksum is an arbitrary function, and memory is assumed to survive the reset."
 },
 "C102": {
  "note": "Partial because the full statement is false (three counterexamples beside it). Proved by refinement to the list of errors reported and not yet retrieved."
 },
 "C103": {
  "note": "Partial because the part about an empty store is false (counterexample). FATAL errors are never stored. C103_exact: every retrieval after every history."
 },
 "C104": {
  "note": "Case split over the commands of the protocol."
 },
 "C105": {
  "note": "The frame is the one handed to the driver; whether the driver takes it is the environment's choice."
 },
 "C106": {
  "note": "Inductive invariant over all inputs, no restriction to completed registrations; only hypothesis: templates without NULL monitor conversions (needed, see the counterexample)."
 },
 "C107": {
  "note": "Simulation between the two models: node functions commute with a longer log (Lemmas/NodeLog), so calls of the process image do not influence anything else (Lemmas/SlaveLog); the monitor part only adds calls. Calls without arguments (request and process image callbacks) are not compared, since the process image is what the monitor changes (C75)."
 },
 "C108": {
  "note": "Invariant over all histories: a search that met an error has a cause other than 'no traffic'. Each processing either ends the search through can_reconnect_off or leaves the modules and the error queue alone. The table of numbers is computed independently from the position of the rate."
 },
 "C109": {
  "note": "Invariant over all histories after lcsa_start. _partial: excludes the state STOPPED and lcsa functions that set the node mode; the exclusion is necessary (C109_stopped_error, C109_stays_silent, C109_counterexample)."
 },
 "C110": {
  "note": "Invariant over all histories. _partial: lcsa_set_baudrate on a running node (C110_counterexample). C110_set: exact effect of lcsa_set_baudrate in every state."
 },
 "C111": {
  "note": "C111_leaves_iff and C111_stuck_iff are exact; C111_in_time_partial excludes the wrap, C111_counterexample shows why."
 },
 "C112": {
  "note": "_partial: process data (with conversions that succeed) and asynchronous data; false for system messages, error messages and uploads (C112_counterexample, C112_counterexample_upload)."
 },
 "C113": {
  "note": "C113_ignored_iff is exact (when the last search ended is taken from the history, not from the stored field); C113_window_partial excludes the wrap, C113_deaf and the counterexamples show why. The same lines of the monitor build (io_can_mon_hw_handler.c) are not modelled."
 },
 "C114": {
  "note": "False for other tick lengths (C114_counterexample) and at the wrap (C114_counterexample_wrap)."
 },
 "C115": {
  "note": "By induction over the history; C115_no_timeout is a consequence: an abandoned transfer blocks further ones for ever."
 },
 "C116": {
  "note": "False for a refusing controller (C116_counterexample); C116_only_if_empty_partial assumes one that accepts all objects."
 },
 "C117": {
  "note": "C117_counterexample: 32-bit platform, natural alignment, user bytes: the pending download mode is lost at the next start. C117_valid_natural: fine without trailing padding."
 },
 "C118": {
  "note": "C118_counterexample_second_init: the send register survives lcsa_init, registering a module with fewer transmit objects then makes the next process request use NULL. C118_counterexample_type_change: system message 0x31 to a template with fewer receive objects leaves the old message object on; an empty frame calls NULL. Changing the number of an unknown module is the known exception of C29."
 },
 "C119": {
  "note": "Frames an application produces by calling the transfer or tunnel functions itself on the monitor CPU are outside the model (control messages of the master are discarded there, io_can_async.c:362-367)."
 },
 "C121": {
  "note": "Partial: with the length check the claim for the main CPU's messages is false (C121_counterexample_transmit_only); the theorem gives the exact condition. Type changes and a second lcsa_init are excluded from the histories, the controller accepts every message object."
 },
 "C122": {
  "note": "C122_counterexample_main_fits: three receive and two transmit objects in a device with one row."
 },
 "C123": {
  "note": "Partial: the silent/awake states differ with a voter (C123_counterexample_voter). That both CPUs see the same system messages in the same order is an assumption."
 },
 "C124": {
  "note": "Partial: the monitor CPU need not have the module switched on although the main CPU has (C124_counterexample_switched: critical, then a number change with all message objects in use); the length condition is that of C121."
 },
 "C125": {
  "note": "Partial: hypotheses of C94, lcsa_init only before the first registration, and nothing may refer to the number (GivenUp). Each part of GivenUp that can be violated after a number change has a counterexample (waiting data, session, upload), so has the second lcsa_init."
 },
 "C126": {
  "note": "Complete characterisation for the calls covered (numbers 1 to 255; a number change by the master names a registered module; a type change is that of an awake module while all registered modules are counted)."
 },
 "C127": {
  "note": "The statement is about the type change of an awake module; what goes wrong otherwise and for other modules is shown by C127_counterexample_critical/active/silent/null."
 },
 "C128": {
  "note": "C128_counterexample_rate: a start rate that does not exist is not noticed; lcsa_start returns OK and the controller was never given a rate."
 },
 "C129": {
  "note": "C129_counterexample_empty and C129_counterexample_twice show the limits."
 },
 "C130": {
  "note": "The desired statement is false (C130_counterexample_stale: frames of modules not registered any more, C130_counterexample_hang, C130_counterexample_null: null pointer dereferenced). Not covered: number and type changes after a further initialization, silent/awake for a row not registered since."
 },
 "C131": {
  "note": "The desired statement is false (C131_counterexample_data). C131_own_data_partial needs the same receive counts in the same order; C131_right_iff says exactly when it holds, for a driver which accepts all definitions, without number and type changes and with enough message objects and table room."
 },
 "C132": {
  "note": "C132_switch_partial: the exact commands of a processing during a search; what is missing is silence, which is false (C132_counterexample). Further: the first lcsa_start starts the monitor controller before it has a rate (C132_counterexample_unset); a refusal of the main controller's driver is lost, so the application is told of a successful end of search (C132_counterexample_refused). C132_in_step holds for every driver."
 },
 "C133": {
  "note": "C133_partial: prefix property, bound and empty flag for every history in which no frame is taken before its write has finished and no interrupt writes during a write. C133_ahead: the first condition is necessary. C133_refused: refusals happen only if frames wait; C133_refused_early: but not only if the FIFO is full. C133_bounds: array bounds. C133_counterexample_twice, _lost, _memory: what happens otherwise. C133_accounted: every write begun is accepted once, refused once or in progress."
 },
 "C134": {
  "note": "C134_unchecked, C134_return: exact statement (noninterference of the flag). C134_partial: handlers called without a name. C134_counterexample: blocks acknowledged without a start and after a termination."
 },
 "C135": {
  "note": "C135_steps_on, C135_steps_off: the steps add up to the function of the table model. C135_off_partial: switching off with requests anywhere. C135_on: switching on with requests anywhere, exact description of the wrong frame. C135_counterexample_stale, C135_counterexample_silent, C135_counterexample_awake."
 },
 "C136": {
  "note": "C136_partial: no frame in the window. C136_one_back: in all cases the rate of the frame is the final one or the one before the last change. C136_counterexample, C136_counterexample_cause: ends with 500 because of a frame received at 1000; without the frame the search goes on. C136_uninterrupted: without an interrupt the steps are the functions of the whole stack; an error during a search does nothing."
 },
 "C137": {
  "note": "C137_steps: uninterrupted, the steps are the functions of the slave model. C137_partial: exact value if the last request came apart from the calls. C137_bounded, C137_compare: what holds for requests inside the calls. C137_counterexample_late, _early, _short, _over, _max: the five harmful points."
 },
 "C138": {
  "note": "C138_steps: uninterrupted, the steps followed by can_config_set_module_silent_awake are the function of the table model. C138_partial: awake module, exact identifiers and data, termination. C138_silent: silent module. C138_counterexample_mixed, _silent, _hang."
 },
 "C139": {
  "note": "C139_steps: uninterrupted, the pieces are the handler. C139_partial: the harmless places, equality of states. C139_window: forgotten requests. C139_false_alarm: modules not valid. C139_blind, C139_frames: two periods without verdict. C139_counterexample_alarm, C139_counterexample_twice: a reachable device."
 },
 "C140": {
  "note": "C140_steps: uninterrupted, the steps are getByte of the buffer model. C140_steps_messages: frames and block ends are those of the whole stack. C140_partial: harmless moments. C140_exact: data at any moment, exact number of unreadable bytes. C140_counterexample_lost, _overwritten, _wrap."
 },
 "C141": {
  "note": "C141_steps_putc, _process, _shutdown: uninterrupted, the steps are the functions of the whole stack. C141_partial: session messages between the calls. C141_exact: at any moment. C141_window, _window_process, _window_shutdown: the harmful moments, in any state. C141_blocked: the tunnel after the shutdown window. C141_counterexample_stranger, _partner, _blocked. C141_steps_messages: the session messages are the handlers of the whole stack."
 },
 "C142": {
  "note": "C142_steps: uninterrupted, the steps are the loop of the whole stack. C142_steps_messages: the messages are its handlers. C142_partial: harmless messages. C142_stop: stops change nothing. C142_safe, C142_window_oob: the only moment at which memory outside the data is read. C142_skip, C142_restart, C142_lost: what the other messages do, in any state. C142_counterexample_oob, _skip, _restart, _stop."
 },
 "C143": {
  "note": "C143_exact: any call, any checksum. C143_crc: every CRC-16 notices every change of two neighbouring bytes. C143_partial, C143_setters: what follows. C143_counterexample: a mixture of two components is accepted."
 },
 "C144": {
  "note": "C144_steps: the steps together are the function of the other models. C144_frame_iff: exactly which frames are ignored. C144_silent_partial: no effect of frames outside the window. C144_counterexample: an answer before the application is told."
 },
 "C145": {
  "note": "C145_exact: partner and module of every message, and when WRONG_STATE is returned. C145_window: all outcomes of a close and of a new session in the window. C145_call: a call as a whole. C145_steps: uninterrupted, it is xonOff of the whole stack. C145_partial: the claim for messages between the calls. C145_counterexample: mixed numbers."
 },
 "C146": {
  "note": "C146_image: every verdict in every history. C146_period: one period, with searches in it. C146_frozen: nothing changes during a search. C146_partial: the claim without a search between the requests. C146_counterexample_mixed, C146_counterexample_lost: both directions fail with a search."
 },
 "C147": {
  "note": "C147_exact: refinement to the slave of C75 to C82 on the frames passed. C147_both_partial: same state and same side of the limit. C147_balanced: over whole histories as many frames of each identifier from both controllers. C147_search_kept: the receive functions change no variable of the search but the flag. C147_counterexample_boundary, C147_counterexample_extended: module found not valid."
 },
 "C148": {
  "note": "C148_partial: order, bound, wake-ups and counter without a message in the window. C148_atomic: nothing needed if the counter is changed with interrupts off. C148_accepted_iff: the writer exactly, any state. C148_dropped_harmless: what is dropped would do nothing. C148_counterexample_lost: message lost and order changed. The reader belongs to the port; its steps are an assumption stated in Model/CtrlQueue."
 },
 "C149": {
  "note": "C149_search, C149_start: exactly when a rate is told, and that the controller has it. C149_exact: the rate told is the one the application gets (C50). C149_history_partial: the rate told last is the rate of the controller in whole histories (not after a rate command of the master: nothing is told then). C149_others: which other inputs change the rate of the controller. C149_plain_partial: the history theorem with these inputs named. C149_nosearch_partial: what is told without search, right just if the current rate is the startup rate already. C149_counterexample_first: rate 0 told at the first start. C149_counterexample_traffic: rate 0 told at a power-on with traffic. C149_counterexample_command: after a rate command of the master the rate told last is the old one."
 },
 "C150": {
  "note": "C150_history: configurations and functions called after every history. C150_type_partial: the function of the type, as long as no type is changed. C150_counterexample_type: after a type change the function of the old type is called for the new one. C150_counterexample_second: the second module of a type is reached by no setting and no call."
 }
}
