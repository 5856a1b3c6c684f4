# Formal model of the li_can_slv stack

`/repo` (C) is read as text.  `/verif/lean` holds a Lean 4 model of the stack, written function by
function, and theorems about it.

* `Verif/Model/*.lean`: the model.  Every definition cites file and lines in `/repo`; simplifications
  are stated in the comment of the definition or in the header of the module.
* `Verif/Spec/*.lean`: small specifications that do not use helpers of the model.
* `Verif/Lemmas/*.lean`: proof helpers.
* `Verif/Props/*.lean`: the property theorems (`Cnn_...`), each with an `example` showing a concrete,
  non-trivial instance of its hypotheses.
* `properties.jsonl`: the English properties; `MANIFEST.json`: property → theorems (generated by
  `tools/manifest.py`); `AXIOMS.txt`: axioms of every property theorem (generated by
  `tools/axioms.sh`); `seeded/LOG.jsonl`: wrong programs the theorems were tested against.

Suffixes: `_partial` proves part of the property (what is missing stands in its comment and in the
manifest); `_counterexample` is a concrete history for which the English property is false of the code.

## 1. Trusted base

* Lean 4.33.0's kernel, and the axioms `propext`, `Classical.choice`, `Quot.sound` (a subset of them
  for each theorem, see `AXIOMS.txt`).  No axioms of our own, no `sorry`, `native_decide`, `bv_decide`.
* That the definitions under `Verif/Model` say what the C code does.  This is a reading of the
  source; nothing was compiled or run.
* That the statements under `Verif/Props` and `Verif/Spec` say what `properties.jsonl` says.

## 2. Modelling conventions

* Unsigned integers: `Nat`, with `u8`, `u16`, `u32` (`% 2^n`) at every store whose wrap can matter.
  Bit masks are `BitVec`/`Nat.testBit`; bytes are `UInt8`; error codes are `BitVec 16`.
* Arrays indexed by row/object are functions on `Nat` updated by `upd`.  Undefined behaviour (access
  out of bounds, call of a `NULL` function) sets a sticky flag `ub`; it is not totalised away.
* Loops that may not terminate are given by their iteration; the function is `Option`-valued and
  termination is a theorem (C10, C16, C27, C58).
* Application code (conversions, handlers, voter, callbacks) is universally quantified.  Calls of it
  are recorded in a log.  A handler of the transfer part may do any sequence of `Act`s on the transfer
  buffer; other callbacks only observe.
* The CAN driver: a frame handed to it is recorded (`txLog`), with an arbitrary answer of the vendor
  library for each call.  Time is an argument of the calls that read it.
* Interrupts: the stack runs to completion for each received frame / API call, except in C16 (copy of
  the process data under interleaved updates), C96, C97 (guarded code of the tunnel and of the error handler)
  and C98 (error queue), where the interleaving is modelled step by step.

## 3. What is modelled

Configuration: `OUTER_APP`, `LI_CAN_SLV_SYNC`, `LI_CAN_SLV_ASYNC`, `LI_CAN_SLV_DLOAD`,
`LI_CAN_SLV_DLOAD_BUFFER_INTERNAL`, `LI_CAN_SLV_ULOAD`, `LI_CAN_SLV_ASYNC_TUNNEL`,
`LI_CAN_SLV_RECONNECT` (C128: without it), `LI_CAN_SLV_SYS_CHANGE_MODULE_NR`, `LI_CAN_SLV_SYS_CHANGE_MODULE_TYPE`,
`LI_CAN_SLV_SYS_MODULE_ERROR`, `LI_CAN_SLV_SYS_ERROR_QUEUE`, `LI_CAN_SLV_XLOAD_INFO_USER`;
table sizes, buffer sizes, timings and user options (`CHECK_LEC`) are parameters.

| model | source |
|---|---|
| `Model/Basic`, `Model/Ids` | identifier macros of `io_can_config_types.h`/`li_can_slv_defines.h`, filter masks, the pseudo random delay of `sys/io_can_sys.c` |
| `Model/ErrQueue` | `error/io_can_error.c`, `error/io_can_errno.h` |
| `Model/Node`, `NodeRun` | module table, message objects, silent/awake/active/critical, number and type change: `config/io_can_config.c`, `core/io_can_main.c`, `arch/canpie_adapter/io_can_main_hw.c`, transmit part of `sync/io_can_sync_handler.c` |
| `Model/Slave`, `SlaveRun` | `sync/io_can_sync.c`, `sync/io_can_sync_handler.c`, `sys/io_can_sys.c`, baud rate and node mode |
| `Model/Snapshot` | interruptible copy of `io_can_main_hw_inline.h` / `io_can_sync_handler.c` |
| `Model/Preempt` | the two locks: `async/io_can_async.c` (tunnel), `arch/canpie_adapter/io_can_main_hw_handler.c`; activations nested by interrupts |
| `Model/ErrIrq` | `error/io_can_error.c` again, one access to the queue per step, with interrupts |
| `Model/XBuf`, `XInfo`, `XLoad` | `xload/*.c` |
| `Model/Async` | `async/*.c`, `core/io_can_main_handler.c` |
| `Model/Reconnect` | `core/io_can_reconnect.c`, `lcsa_start`, `li_can_slv_process`, `io_can_main_hw_handler.c` |
| `Model/NoSearch` | `lcsa_start`, frame and error handler without `LI_CAN_SLV_RECONNECT` |
| `Model/Lookup` | getters for number, state and count of the modules, `config/io_can_config.c` |
| `Model/Mon` | the node with a second controller (`LI_CAN_SLV_MON`): `core/io_can_mon*.c`, `arch/canpie_adapter/io_can_mon_hw.c`, the `_mon` branches of `sync/*.c`, `config/*.c` |
| `Model/MonRx` | the receive functions of both controllers in front of `Model/Mon` (io_can_main_hw_handler.c:112-166, io_can_mon_hw_handler.c:101-134), the search variables set by an arbitrary environment |
| `Model/CtrlQueue` | the queue of `CAN_ASYNC_CTRL_RX_QUEUE` (io_can_async.c:196-202, 252-322); the reader is in the port, what it does is assumed and stated there |
| `Model/Tell` | the calls of `li_can_slv_port_sync_baudrate` (io_can_reconnect.c:868, li_can_slv_api.c:153, 234) and the rate they pass |
| `Model/IoConfig` | the member `ioconfig` of the table rows (`LI_CAN_SLV_MODULE_IO_CONFIG`): io_can_config.c:1306-1349, 1590-1603, 2182; what the function of the application does is not modelled |
| `Model/MonSearch` | mode and rate of the two controllers with `LI_CAN_SLV_MON` and `LI_CAN_SLV_RECONNECT`: the monitor branches of `core/io_can_reconnect.c`, `core/io_can.c`, `config/io_can_config.c`, `arch/canpie_adapter/io_can_mon_hw.c` |
| `Model/Driver` | transmit path of the driver: `can_main_hw_send_msg`, `verify/canpie/source/canpie-fd/cp_msg.c`, `cp_fifo.c`, `CpCoreFifoWrite` of the unit-test device |
| `Model/FifoIrq` | the same FIFO statement by statement, with interrupts between any two statements of a write of the main loop; the copy of a frame is one step, interrupts are not interrupted |
| `Model/SwitchIrq` | switching a module silent or awake (io_can_config.c:1209-1294, 1715-1745; io_can_main.c:462-484) statement by statement, with process requests and number changes in the receive interrupt between any two statements; type changes during the call are not modelled, conversions called while switching off are one step |
| `Model/SearchIrq` | the error handler during a search (io_can_main_hw_handler.c:209-262, io_can_reconnect.c:409-475) cut at the uses of the flag `msg_pending`, with received frames between the cuts; searches after errors only, main node only |
| `Model/PeriodIrq` | the process period (io_can_sync.c:459-475, 1072-1080, 1250-1269) access by access, with process requests between any two accesses and both orders of the operands at line 1257 |
| `Model/NumberIrq` | `li_can_slv_config_change_module_nr_and_identifiers` (io_can_config.c:1781-1926) with `can_main_sync_process_tx_data_cnfg` (io_can_main.c:427-454) access by access, with process requests between any two accesses; the message objects as one step |
| `Model/MonIrq` | the request part of `can_sync_handler_rx` and `can_sync_handler_rx_mon` with `li_can_slv_sync_check_process_image` (io_can_sync.c:959-1060) condition by condition and module by module, interrupted by the handler of the other controller; one clock value |
| `Model/BufIrq` | `xload_buffer_get_byte` (li_can_slv_xload_buffer.c:114-134) access by access, with the additions of data frames (li_can_slv_xload.c:591-620) and removals at block ends between any two accesses |
| `Model/TnlIrq` | `can_async_tunnel_putc`, `can_async_tunnel_process_tx_data`, `can_async_tunnel_shutdown` (io_can_async.c:925-1038) use by use of the session, with the session messages (447-578) between any two uses |
| `Model/UlIrq` | `li_can_slv_uload_data_from_buffer` (li_can_slv_xload.c:1021-1111) and the block end (1203-1222) access by access to the shared counters and the module number, with the master's messages between any two accesses |
| `Model/InfoTorn` | the writing functions of li_can_slv_xload_info.c stopped by a reset at any byte |
| `Model/SearchEnd` | io_can_reconnect.c:833-1030 in steps, with io_can_main_hw_handler.c:112-166 between them |
| `Model/FlowIrq` | io_can_async.c:876-916 in steps, with 447-578 between them |
| `Model/Receive` | receive path of the driver: `can_main_hw_handler_rx`, `CpCoreBufferGetData` of the unit-test device, with the uninitialised array as an argument |
| `Model/Conv` | the example conversions of `verify/io_app_conv/io_app_convc.c`, for either byte order of the platform |
| `Model/InfoMem` | `xload/li_can_slv_xload_info.c` again, the structure as bytes, all variants and layouts |
| `Model/Unknown` | `lcsa_start` with `LI_CAN_SLV_UNKNOWN_MODULE` |
| `Model/Cpu2` | the monitor CPU of a device with two CPUs (`LI_CAN_SLV_MAIN_MON`): the `CAN_MAINMON_TYPE_MON` branches of `config/io_can_config.c`, `sync/*.c`, `sys/io_can_sys.c`, `io_can_main_hw_handler.c`, `lcsa_start` |
| `Model/Stack`, `StackRun` | all of it in one state, with the histories of API calls and received frames |

## 4. What is not modelled

* The asynchronous part on the monitor CPU of `LI_CAN_SLV_MAIN_MON`, the link between the two CPUs (`ERROR_MAIN_MON`; of `li_can_slv_port_sync_baudrate` the calls and their argument are modelled, not what the port does with it), and the boot variants: with `LI_CAN_SLV_BOOT` the pinned sources do not compile (`li_can_slv_set_mode`,
  called in li_can_slv_xload.c:358 and 922, is defined nowhere; `can_config_module_nr_valid` is called with four
  arguments and takes three).
* `LI_CAN_SLV_ASYNC_TUNNEL_TIME_STAMP`,
  `LI_CAN_SLV_SYNC_CRITICAL_CLEAR_OBJ` (does not compile: `can_msg_obj_init`, called in io_can_config.c:1109, is defined nowhere),
  `LI_CAN_SLV_XLOAD_INFO_BACKWARD_COMPATIBILITY` outside `Model/InfoMem`.
* Plain getters/setters of one variable not named in a property; debug output; `li_can_slv_deinit`;
  `util/io_can_quality.c`.
* The vendor driver (CANpie) apart from its transmit and receive paths (`Model/Driver`, whether the
  controller is busy is an argument there; `Model/Receive`), the port layer, interrupts inside the operations of the asynchronous transmit queue (the stack reaches them under the tunnel's lock only, C96; the exported function could be called by an application besides; those of the driver's FIFO: `Model/FifoIrq`), alignment and
  object representation of structures (except the transfer info, `Model/InfoMem`).  Except in C90 the
  bytes behind a received message are part of the (arbitrary) input.
* With monitor: application transmit objects are at least eight bytes long (`can_sync_tx_data_main` copies
  eight bytes of each, io_can_sync.c:625); changing a module type.

## 5. Plan and proof per property

| id | modelled | how proved |
|----|----------|------------|
| C01, C02 | identifier arithmetic | arithmetic over all numbers and objects; counterexample above 128 |
| C03 | mask fold over the registered numbers | bitwise, induction over the list of modules |
| C04, C05 | `lcsa_add_module` on the table | invariant over all histories of registrations |
| C06 | registration with a finite pool of message objects and a refusing driver | invariant; counterexample: pool exhausted, OK returned |
| C07, C08 | message object allocator and slot table | injectivity invariant over all histories |
| C09, C11, C13 | transmit control bits, silent/active/critical | loop result computed by induction over positions; invariant relating bits and rows; counterexamples |
| C10 | transmission loop | ranking on the remaining bits; divergence by a fixed point of the iteration |
| C12, C23–C28 | system message handler | every reachable answer goes through one send function; case analysis with frame conditions over all commands |
| C14, C15, C17, C18, C56 | process image, periods, first-request notifications | induction over received frames and requests; 16-bit wrap explicit |
| C14 (exact) | process image in every history | `Spec/Image` (bookkeeping of arrivals beside the module table), `Props/Image` (the bookkeeping follows each input; 16-bit counters as residues); covers the cases excluded from `C14_valid_iff_once_partial` |
| C16 | copy loop interleaved with arbitrary updates | small-step semantics, invariant: without an update flag the copy so far equals the source |
| C19–C22, C52 | error queue of arbitrary size, encoding | refinement to a list; exact characterisation of the out-of-bounds states |
| C29, C53, C54 | number change | frame condition for the row found; counterexamples |
| C54 (exact) | message object for process requests | `Spec/ReqObj` (which row a number change concerns), `Lemmas/ReqObj`, `Lemmas/ReqStack` (relation on object 0 composed over all calls; invariant over the elementary steps of the stack); false in general: counterexamples half-registered module, type with more receive objects; exact condition `C54_lost_iff` |
| C30, C31 | baud rate and node mode | case analysis, invariant over histories |
| C32, C59 | transmit queue of four frames | refinement to a list; stuck invariant |
| C33, C34, C36, C37, C60, C61 | tunnel sessions in the whole stack | session specification (`Spec/Session`), every step of the stack keeps or changes it as specified; `C36_exact`: the bytes that leak are exactly those buffered |
| C35, C62 | tunnel byte stream | concatenation invariant (`newLog`, `pendingOf`) |
| C38–C40 | transfer ring buffer | refinement to a list with a stored position |
| C41 | six-bit names | packing is inverted for all names |
| C42, C43, C45, C57 | download | induction over data messages, blocks and the file; application handlers arbitrary sequences of actions; `C42_exact`: every announced byte count, the 16 bit difference included |
| C44, C58 | upload | induction over segments, arbitrary clock; `C44_exact`: every call, whatever was transferred before |
| C46 | persistent info with an arbitrary checksum | induction over setters |
| C47 | one-time registration | induction over later histories of the whole stack |
| C48–C50, C63–C65 | baud rate search | invariant of the search state over all histories (`RInv`), history predicates of `Spec/Recon`; C50 also exact: a book of the searches kept from inputs and controller rates alone (`Spec/EndRate`) gives the rate with which a search ends |
| C66, C67, C69, C70, C74 | answers, begin and end of transfers | one message at a time over arbitrary stacks, arbitrary values and application replies; counterexamples with two modules |
| C68, C71 | granted and closed tunnel sessions | effect on the message object and on the session, both replies of port and driver |
| C72 | `lcsa_start` after a download | case analysis over the paths of the start; idempotence |
| C73 | end of a search | `RInv` with a bound of the idle counter, progress over at most idleMax + 2 calls |
| C75 | one period of the slave with monitor controller, either order of the requests | invariant over all histories (`MReach`, `MInv`), then induction over the frames of the period (`Per`), verdict characterised by `Spec.Verdict` |
| C76, C77, C78, C80, C81 | monitor message objects, verdicts, rates, monitor frames | invariants over all histories; frame conditions; counterexamples |
| C79 | node mode with two controllers | case analysis; counterexamples |
| C51 | pseudo random delay | arithmetic |
| C82 | valid-time functions | induction over histories from power-on: flag and length tell the last request; the stored time is that of the last judging request |
| C83, C84 | driver FIFO and transmit path | refinement of a bounded list queue, induction over histories; counterexample: overtaking |
| C133 | driver FIFO with interrupts inside a write | step machine of the write, invariant by program counter over all interleavings; the exact condition, necessity; counterexamples: frames doubled, lost, written behind the array |
| C134 | transfer data outside a transfer | two runs that differ in the progress flag are compared command by command (noninterference), induction over the messages; second relation for the name of the component; counterexample |
| C135 | switching a module while process requests arrive | the call as a list of steps on shared variables (proved equal to the function of the table model when not interrupted); an invariant of every state of the call, kept by requests; frames of a request by induction over the send loop; counterexamples for switching on and for number changes |
| C136 | a search ended by a frame, with the receive interrupt between the steps of the error handler | the handler cut where it uses the flag; writing the flag commutes with the rest of a step (proved); a book of the rate of the last frame and the rate before the last change, kept from observable effects only; invariant by induction over the events, once for undisturbed and once for all sequences; counterexample |
| C137 | the process period with requests inside the calls | calls cut at every access to the two variables (proved equal to the functions of the slave model when not interrupted); a watch kept from requests and clock readings; invariant by induction over the events, valid again after every request apart from the calls; counterexample for each harmful point |
| C138 | a number change by the application with requests inside | the call cut at every access to the tables the answering reads (proved equal to `changeNr` when not interrupted); invariant along the remaining steps, kept by requests; the frames from the loop invariant of C135, termination from the exact condition of C10; counterexamples for mixed answers, silent modules and the endless answer |
| C139 | a process request handled on both controllers, one interrupt inside the other | one handler cut into its conditions, the modules and the clearing (proved equal to the handler when not interrupted), the other handler between two pieces; the rest of the handler from every place in closed form; commutation of the two notes; counterexamples for false alarms and double verdicts |
| C140 | reading the transfer buffer with data arriving | the read cut at its accesses to `nr_bytes` (proved equal to `getByte` when not interrupted; frames and block ends equal to the loop and the removal of the whole stack); invariant: the buffer with corrected count and index holds the accepted bytes not returned, the difference of the counts is the number of bytes accepted in the window; counterexamples for unreadable and overwritten bytes and for the count 65535 |
| C141 | the tunnel's functions with session messages arriving | putc, processing and shutdown cut at their uses of the session (proved equal to the functions of the whole stack when not interrupted); specification on the observed events only; invariants for messages between calls and for messages anywhere; the windows in any state; an invariant for the blocked tunnel |
| C142 | an upload with messages of the master arriving | the upload function cut at its uses of the shared counters and number (proved equal to the loop of the whole stack when not interrupted; the messages equal to its handlers); an invariant over all histories with harmless messages, started again after each harmful one; an invariant for the memory; the windows in any state |
| C143 | a reset in the middle of a write of the transfer info | byte model of C117; the memory after a reset is any mixture of old and new bytes, or the new bytes with any checksum; exact condition for acceptance; cyclic redundancy checks as shift registers, detection of two neighbouring bytes by running the register backwards |
| C43, C55, C56, C60, C62, C74, C110, exact | what happens where these claims fail | `Props/Exact`, `Props/Exact2`: exact effect or exact condition, on the same models |
| C144 | frames while a search is being ended | `can_reconnect_off` in five steps, cut where it writes what the receive interrupt reads; proved equal to the unsplit function; invariant of place, state and end time over all interleavings; frames that are ignored commute with all steps |
| C145 | XON and XOFF while session messages arrive | calls in steps over the session of C141 (proved equal to `xonOff` when not interrupted); invariant: what the call has read was so at moments in order, with session messages between them only |
| C63, C103, exact | what happens where these claims fail | `Props/Exact3`: the queue does not depend on the search outside the state ON; the last error is never forgotten |
| C146 | verdicts on the modules in the whole stack, with searches | the bookkeeping of C14 carried along every input of the stack (only a received frame changes what the verdicts depend on); no hypothesis on the history |
| C147 | receive functions of both controllers (`Model/MonRx`), the search as arbitrary environment | the gated run equals `Mon.run` on the frames let pass (induction over the history) |
| C148 | queue for control messages, reader cut at its accesses to the counter | invariant (entries waiting, indices modulo the length) over all histories |
| C149 | rate told to the monitor CPU, over the whole stack with and without search | exactly the calls that end a search (by the reasons of C50); invariant over all histories; counterexample without search |
| C150 | I/O configurations over the module table with number and type changes | refinement to the list of modules (C126) with one configuration per module; counterexample after a type change |
| C85 | all frames of the whole stack | invariant over all histories (`SL`), joined with C84; counterexamples: number 0 from the bus, nine byte template |
| C86 | delays of `li_can_slv_rand` over all requests | the difference of two seeds determines the difference of the delays; counterexample: serial numbers 65536 apart |
| C87 | conversions over byte lists, either byte order | induction over the words, against `be`/`native` of `Spec/Conv`; counterexamples: odd length, words as nibbles |
| C88 | packing of three 20-bit values | arithmetic of the bytes as one number |
| C89 | uint12 conversions | induction over the sequence of objects, bytes computed; transmit through the stack fails (counterexample) |
| C90 | receive path with arbitrary stale bytes | two runs with different stale bytes compared step by step over all histories; counterexamples: short control message, length code nine, overwritten buffer, remote frame |
| C91 | conversions in the node | C09 and C15 instantiated with the conversions of C87 |
| C92, C93 | reported state and search callbacks | every call begins, continues, ends or is refused in a search (`Did`), all other inputs leave state and callbacks alone (`Calm`); induction over histories, the callbacks read by a small automaton (`Spec.track`); counterexamples |
| C94 | identifiers of two slaves | invariant of the table, queue, tunnel and transfer (`StatO`, `SO`): every configured identifier and every waiting frame belongs to a number of the node; induction over histories, then arithmetic on identifiers; counterexamples |
| C95 | slaves do not hear slaves | the same invariant contains that every receive object lets master messages through only (bits of `acceptMask`); counterexample |
| C96, C97 | locks under nested interrupts | guarded code an arbitrary step function; invariant over the stack of activations: the lock counts those past the increment, only the lowest can be inside, the data is a serial execution (`Spec.Serial`); counterexamples for time slices |
| C98 | error queue under interrupts | linearisation: the log of effects is followed by the FIFO of C20; invariant for every line of a half-executed call (`Mid`, `Window`); counterexamples for each excluded interrupt |
| C99 | repeated number changes | invariant `Placed` (message objects of the registered modules); each change takes exactly one unused object; induction over the list of changes; counterexample with eleven objects |
| C100 | data of a silent module | run of the receive conversions with zeros, object by object; frames to a module whose row was switched off |
| C101 | values of the transfer info | every call keeps the checksum right and the values it does not write; induction over the calls after the last store |
| C102 | reporting and retrieving by number | refinement of the interface by numbers to the interface by message codes (C19) and on to a list; counterexamples for FATAL, the redundant priority and empty retrievals |
| C103 | no error queue | induction over the history; counterexample for a retrieval without an error |
| C104 | requests without handler | case split over the commands, each reduced to the termination of C45 |
| C105 | messages ordered by the application, unknown commands | direct computation of the single frame and of the remaining state |
| C106 | tables and pointers of the monitor part | invariant `Safe` preserved by every input, registrations and number changes included |
| C107 | slave with monitor against slave without | simulation over histories: functions of the node commute with a longer log, the monitor only adds calls |
| C108 | end of a search with its report in the error queue | invariant over histories, then case analysis of `li_can_slv_process`; error numbers from an independent table |
| C109, C110 | node mode, controller state and bit rate along histories of the whole stack | invariants over histories; inputs other than processing and start are reduced to four effects on mode and rate |
| C111 | online search and the 32-bit tick counter | the end of the time for a rate is fixed by the last switch (invariant over histories without a switch); induction over the calls gives the exact condition; counterexample at the wrap |
| C112 | refused frames | induction over the transmission loop, counting refused frames in the log; counterexamples for error messages and uploads |
| C113 | option to ignore frames after a search (`Model/Ignore.lean`) | the stored time is the time the last search of the history ended (induction over all histories); counterexample at the tick wrap |
| C114 | upload against an arbitrary clock | the readings used by the upload form a sequence of waits (induction over the messages); exact condition for returning (C58); counterexamples for the tick length and the wrap |
| C115 | whole stack, all inputs | frame condition on the transfer state by cases on the input and induction over the history; with C43 the refusal of the next start request |
| C116 | `Model/Unknown`: `lcsa_start` with the substitute module | registration without objects computed; counting invariant over all histories of table calls; histories with the option translated into histories without; counterexample for a refusing controller |
| C117 | `Model/InfoMem`: the transfer info as bytes, C layout rule, three variants | layout lemmas (members inside, no overlap) by induction over the declaration; memory lemmas; induction over the calls; exact condition when the sum covers itself; counterexample |
| C118 | pointers of the module table, whole stack | every input decomposed into elementary steps on the table (`Lemmas/NodeTrace`); two invariants (`SafeA`, `SafeB` in `Lemmas/NodeSafe`) kept by each of them; induction over histories; two counterexamples |
| C119 | frames given to the driver on the monitor CPU | `Model/Cpu2` function by function; each keeps the send counter and adds no frame to the log (`Lemmas/Cpu2`); induction over histories |
| C120 | node mode of the monitor CPU | exact effect of every input on mode and driver state (`Lemmas/Cpu2Link`), induction over histories |
| C121 | message objects, slots and filters of the monitor CPU | invariant `Rig` (every object of every row in its own message object with its own identifier, no other filter lets data through, copies of the row switched on or off) kept by every input (`Lemmas/Cpu2Wires`, `Cpu2Rig`, `Cpu2Run`); then one received frame |
| C122 | room for a registration on the monitor CPU | counting of unused message objects and slots through the loops of `can_config_set_module` |
| C123 | the tables of both CPUs under the same calls and system messages | `Lemmas/Twin`: relation `Pair` (rows equal up to the copies for the synchronous data, type changes registered, silent states) kept by every pair of inputs, all other inputs leave the table alone; induction over the common list of table inputs |
| C124 | process request on the main CPU, its answer received by the monitor CPU | C123 for the rows, the simulation of C09 for the frames of the answer, `Rig` of C121 for each frame received; induction over the frames |
| C125 | frames after a number was given up | `Lemmas/Current`: every configured transmit object carries the current number of its row and only configured objects are switched on (`Cur`, induction over histories by `NTrace`); then the invariant of C94 holds again for the remaining numbers, with the past log as base; counterexamples |
| C126 | process requests after number changes | `Spec/Renumber`: table with number and type changes and the end of the send list; simulation `Lemmas/Renum` (the relation of C09 without the parts number changes break); the loop ends iff there is no gap (C10), then the frames are those of C09's proof |
| C127 | process requests after a type change | same simulation: the type change sets up all awake modules again, so the end lies behind every object in use; counterexamples |
| C128 | the stack without automatic baud rate search | `Model/NoSearch` (the functions that differ in that build); refinement: each input is translated into calls of the stack with search in state "no search", then C109's link analysis |
| C129 | what the application learns about its modules | `Model/Lookup` (getters); the simulation of C126 relates rows and modules; agreement with the bus through `C126_process_data` |
| C130 | process requests after a further `lcsa_init` | `Spec/Restart` (send list with what is left from before), `Lemmas/Restart` (simulation without the assumption that unregistered rows are empty); the desired statement (exactly the modules registered since) is false: counterexamples stale, hang, null |
| C131 | received process data after a further `lcsa_init` | `Spec/Objects` (which free objects each registration takes), `Lemmas/Objects` (free list and slot table invariant over all periods; slots only grow); the desired statement is false: counterexample data |
| C132 | the monitor controller during the baud rate search | `Model/MonSearch` (`LI_CAN_SLV_MON` with `LI_CAN_SLV_RECONNECT`), `Lemmas/MonSearch`: agreement of the controllers as invariant over all inputs, equality of the main part with `Model/Reconnect`, exact commands of a round; silence of the monitor controller is false: counterexamples |
| C55 | initialisation | direct; counterexample for the second one; simulation between the node before and after it (same frames) |

No listed property had to be given up as not expressible.

## 6. Findings

Properties that are false of the code have a `_counterexample` theorem, which is an execution of the
model from power-on; the theorem beside it proves what remains.

C06 (OK although objects are missing), C10 (endless transmission loop after a number change), C11
(silent module transmits), C13 (critical is not final), C14 (first period, overlong request, awake
during a period), C20 (error queue writes behind its buffer), C27 (errors of silent modules vanish),
C29 (write behind the module table), C30 (OK for an unsupported rate, rate reported), C34 (denied open
leaves a session), C36 (bytes leak into the next session), C42 (short block acknowledged; a count near 65536 erases earlier bytes), C43 (refused
start ends the running transfer), C44 (second block), C46 (rate kept from corrupted memory), C50 (rate 0
reported), C52 (peek order), C53 (two modules with one number), C54 (process request object lost), C55
(second initialisation), C56 (16-bit tick limit), C58 (tick wrap), C59 (queue of four stuck for ever),
C60 (foreign close), C61 (data without a session), C62 (flush too early), C63 (frames sent in a search),
C64 (operational at an untested rate), C65 (tick wrap at startup: ends at once, or never), C68 (tunnel filter refused by the
driver), C74 (foreign messages disturb a download), C75 (overlong request, late monitor), C76 (unwatched module), C77
(validity survives the loss of a controller), C79 (monitor runs while stopped, refusal hidden), C82
(second module of a type), C84 (overtaking, truncated identifier, overflow of the message), C133 (frame taken before its write has finished; write by an interrupt during a write), C134 (data without a start are acknowledged), C135 (another module's data in a frame, a silent module that answers), C136 (search ends with a rate no frame was received at), C137 (wrong process period: false alarm, hidden loss, above the maximum), C138 (mixed answers, a silent module answers, an endless answer, during a number change), C139 (false alarms, forgotten requests and double verdicts when the controllers' interrupts nest), C140 (bytes that cannot be read or are overwritten when data arrive during a read), C141 (data under number 125 after the close, data for the next partner, blocked tunnel), C142 (bytes skipped, block moved to another module, byte outside the data read, stop ignored), C143 (a mixture of two components accepted), C144 (an answer before the application is told of the end), C145 (flow control for one partner in another session), C146 (frames of two periods make a module valid), C147 (search ends between the two interrupts of a frame; extended frame at the monitor), C148 (message lost when the counter is changed by port and interrupt), C149 (rate 0 told at a power-on with traffic, and at the first start without search; nothing told after a rate command), C150 (a type change keeps the I/O configuration of the old type), C85 (number 0 accepted from the bus),
C86 (serial numbers 65536 apart delay alike), C87 (odd length, words as nibbles), C89 (transmit conversions read
beyond the copy of eight bytes), C90 (uninitialised bytes on the bus, identifier and bytes of different messages, remote frames),
C92 (RUNNING while only listening, INIT while operational, RECONNECT without a search), C93 (search ends without a word, `lcsa_start` drops a search),
C94 (unused rows answer for 125..127, type change while silent, errors without a module), C95 (default numbers above 128),
C96 (byte lost, lock stuck with time slices), C97 (re-entered without the option), C98 (errors lost, invented or mixed by interrupts), C99 (message objects used up by number changes), C102 (FATAL errors lost, redundant priority ignored, indeterminate error number), C103 (old error returned again),
C108 (rate 0 at the end of the search at startup), C109 (silent after an error while STOPPED), C110 (rate reported after a refused change), C111 (search stuck for ever at the tick wrap), C112 (error messages and upload segments lost when the driver refuses them), C113 (with the option, deaf after every tick wrap), C114 (upload delay taken in ticks, none at the wrap), C115 (an abandoned transfer never times out), C117 (checksum over itself when the structure is not packed), C118 (`NULL` used after a second initialisation or a change of type), C116 (substitute module beside a registered one that was not counted), C120 (monitor CPU listens only after any bus error), C121 (messages of transmit-only modules not mirrored), C122 (registration that fits only on the main CPU), C123 (voter and full message objects: silent on one CPU only), C124 (switched on again on one CPU only), C125 (waiting data, tunnel session and upload keep the old number; objects of the first registration after a second `lcsa_init`), C127 (a type change restarts critical modules with foreign data, stops active ones, leaves the lengths and identifiers of a silent module unset), C128 (without search an unsupported start rate is not noticed).
