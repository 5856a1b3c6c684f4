import Verif.Model.Async
/-!
# Automatic baud rate search, start and cyclic processing

Models source/core/io_can_reconnect.c (main node only, with the online and startup callbacks),
`lcsa_start` of source/api/li_can_slv_api.c, `li_can_slv_process` of source/core/io_can.c and
source/arch/canpie_adapter/io_can_main_hw_handler.c, for `LI_CAN_SLV_RECONNECT`.

Simplifications
* `LI_CAN_SLV_UNKNOWN_MODULE` and `LI_CAN_SLV_MAIN_MON` are not defined.
* `can_main_hw_free_tx_objs` does nothing (io_can_main_hw.c:140-144).
* The callbacks only observe.
-/
namespace LiCan
namespace Stack

/-- change the reconnect part -/
def setR (s : Stack) (f : Recon → Recon) : Stack := { s with rc := f s.rc }

/-- The slave changed; a baud rate stored on the way is in the transfer info
(`li_can_slv_xload_info_set_can_baudrate` in io_can_config.c:833). -/
def setSlv (env : AEnv) (s : Stack) (v : Slave) : Stack :=
  { s with slv := v, info := if v.link.storedN = s.slv.link.storedN then s.info else s.info.setBaud env.crc v.link.stored }

/-- `li_can_slv_set_node_mode` with its return code, on the whole stack -/
def nodeMode (env : AEnv) (s : Stack) (m : Mode) : Stack × Err :=
  let r := Slave.setMode env.toEnv s.slv.link m
  ({ s with slv := { s.slv with link := r.1 } }, r.2)

/-- `can_config_set_baudrate` with its return code, on the whole stack -/
def baudRate (env : AEnv) (s : Stack) (b : Nat) : Stack × Err :=
  let r := Slave.setBaud s.slv.link b
  (s.setSlv env { s.slv with link := r.1 }, r.2)

/-- an application function called through a pointer that may be `NULL` -/
def notify (s : Stack) (f : Option Nat) (c : Nat → ACall) : Stack :=
  match f with
  | none => s
  | some k => s.logCall (c k)

/-- `can_reconnect_bdr_table`, io_can_reconnect.c:174-180 -/
def rcTab : List Nat := [125, 1000, 500, 250]

/-- `can_reconnect_next_baudrate`, io_can_reconnect.c:1036-1074. -/
def nextBaud (env : AEnv) (s : Stack) (now : Nat) : Stack :=
  let i := if s.rc.idx < 3 then s.rc.idx + 1 else 0
  let b := rcTab.getD i 0
  let s := (s.nodeMode env .stopped).1
  let r := s.baudRate env b
  let s := if r.2 = E.ok then (r.1.nodeMode env .listen).1 else r.1
  s.setR fun c => { c with idx := i, back := b, next := u32 (now + env.ms2t env.swTime) }

/-- `can_reconnect_on`, io_can_reconnect.c:801-827; `first`: `id == 1`. -/
def rcOn (env : AEnv) (s : Stack) (now : Nat) (first : Bool) : Stack :=
  let s := { s with lcsa := .reconnect }
  let s := s.setR fun c => { c with bit0 := 0 }
  let s := if first then s.setR fun c => { c with idx := 0, next := u32 (now + env.ms2t env.swTime) }
    else s.nextBaud env now
  s.setR fun c => { c with process := true }

/-- error number reported for a rate, io_can_reconnect.c:916-944 and 958-986 -/
def connectErr (startup : Bool) (baud : Nat) : Option Err :=
  match startup, baud with
  | true, 125 => some E.connectStartup125
  | true, 250 => some E.connectStartup250
  | true, 500 => some E.connectStartup500
  | true, 1000 => some E.connectStartup1000
  | false, 125 => some E.connectOnline125
  | false, 250 => some E.connectOnline250
  | false, 500 => some E.connectOnline500
  | false, 1000 => some E.connectOnline1000
  | _, _ => none

/-- `error_syserr_send(.., ERR_LVL_UNAWARE, can_config_get_module_nr_main(), ..)` -/
def reportUnaware (env : AEnv) (s : Stack) (e : Option Err) : Stack :=
  match e with
  | none => s
  | some e =>
    if env.sysErr then
      s.setNode { s.slv.node with
        errq := (s.slv.node.errq.syserrSend env.qSize e 1 (s.slv.node.rows 0).nr).1 }
    else s

/-- The part of `can_reconnect_off` that runs if the node is operational again,
io_can_reconnect.c:898-1026. -/
def rcDone (env : AEnv) (s : Stack) (baud : Nat) : Stack :=
  match s.rc.cause with
  | .startup =>
    ({ s with lcsa := .init }.reportUnaware env (connectErr true baud)).notify s.rc.suStop fun f => .suStop f baud
  | .ewrn | .boff =>
    ({ s with lcsa := .running }.reportUnaware env (connectErr false baud)).notify s.rc.onStop fun f => .onStop f baud
  | .noTraffic => { s with lcsa := .init }.notify s.rc.suStop fun f => .suStop f baud
  | .download => { s with lcsa := .init }

/-- `can_reconnect_off`, io_can_reconnect.c:833-1030. -/
def rcOff (env : AEnv) (s : Stack) (now : Nat) : Stack :=
  let baud := s.rc.back
  let s := s.setR fun c => { c with process := false }
  let s := (s.nodeMode env .stopped).1
  let r := s.baudRate env baud
  let r := if r.2 = E.ok then r.1.nodeMode env .operational else r
  let s := if r.2 = E.ok then { r.1 with lcsa := .running } else r.1
  let s := s.setR fun c => { c with state := .off, nr := u16 (c.nr + 1) }
  let s := if r.2 = E.ok then s.rcDone env baud else s
  s.setR fun c => { c with backTime := env.t2ms now }

/-- `li_can_slv_reconnect_startup`, io_can_reconnect.c:344-365. -/
def rcStartup (env : AEnv) (s : Stack) (now : Nat) : Stack :=
  if s.rc.state = .startup then
    let s := s.notify s.rc.suStart .suStart
    let s := s.setR fun c => { c with
      time := u32 (now + env.ms2t env.suTime), cause := .noTraffic, pending := .none }
    s.rcOn env now true
  else s

/-- `li_can_slv_reconnect_on_main_node_online` (409-438) and `.._recovery` (446-475). -/
def rcError (env : AEnv) (s : Stack) (now : Nat) (cause : RCause) : Stack :=
  if s.rc.state = .off ∧ s.lcsa ≠ .stopped then
    let s := s.notify s.rc.onStart .onStart
    let s := (s.nodeMode env .stopped).1
    let s := (s.nodeMode env .listen).1
    let s := s.setR fun c => { c with state := .on, cause := cause, pending := .lec }
    s.rcOn env now false
  else s

/-- Switch to the next rate and wait, io_can_reconnect.c:635-642 and 680-687. -/
def rcSwitch (env : AEnv) (s : Stack) (now : Nat) : Stack :=
  if s.rc.next < now then
    (s.nextBaud env now).setR fun c => { c with bit0 := 0, idle := 0, state := .idle }
  else s

/-- `li_can_slv_reconnect_process`, io_can_reconnect.c:542-740. -/
def rcProcess (env : AEnv) (s : Stack) (now : Nat) (intid : Pending) (lec : Lec) : Stack :=
  if s.rc.process = false then s
  else
    match s.rc.state with
    | .startup =>
      if intid = .msg then (s.setR fun c => { c with cause := .startup }).rcOff env now
      else if s.rc.time < now then
        (s.setR fun c => { c with cause := .noTraffic, back := s.slv.link.startup }).rcOff env now
      else if intid = .lec ∨ (env.checkLec = true ∧ lec ≠ .none) then
        (s.setR fun c => { c with cause := .startup, state := .on }).rcOn env now false
      else if s.rc.next < now then s.nextBaud env now
      else s
    | .on =>
      if intid = .msg then s.rcOff env now
      else if intid = .lec ∧ lec = .none then s.rcSwitch env now
      else
        match lec with
        | .none => s.rcOff env now
        | .bit0 =>
          let s := s.setR fun c => { c with bit0 := u16 (c.bit0 + 1) }
          if 10 ≤ s.rc.bit0 then s.rcOff env now else s
        | .undef => if intid = .none then s.rcOff env now else s
        | _ => (s.setR fun c => { c with bit0 := 0 }).rcSwitch env now
    | .idle =>
      let s := s.setR fun c => { c with idle := u16 (c.idle + 1) }
      if env.idleMax < s.rc.idle then s.setR fun c => { c with state := .on } else s
    | _ => s

/-- `cp_state.ubCanErrState` of `CpCoreCanState`. -/
inductive BusState
  | active | passive | busOff
deriving DecidableEq, Repr

/-- The part of `can_main_hw_handler_error` for the interrupt bus off or a last error,
io_can_main_hw_handler.c:219-225. -/
def hwBusOff (env : AEnv) (s : Stack) (now : Nat) (bus : BusState) (lec : Lec) : Stack :=
  if bus = .busOff ∨ lec ≠ .none then
    (((s.nodeMode env .stopped).1.nodeMode env .listen).1).rcError env now .boff
  else s

/-- The same for error passive, io_can_main_hw_handler.c:227-241. -/
def hwPassive (env : AEnv) (s : Stack) (now : Nat) (bus : BusState) : Stack :=
  if bus = .passive then
    { s with slv := { s.slv with link := (Slave.drvMode env.toEnv s.slv.link .listen).1 } }.rcError env now .ewrn
  else s

/-- `can_main_hw_handler_error`, io_can_main_hw_handler.c:182-272, for the bus state and last error
reported by the driver. -/
def hwError (env : AEnv) (s : Stack) (now : Nat) (bus : BusState) (lec : Lec) : Stack :=
  let s :=
    if (bus ≠ .active ∨ lec ≠ .none) ∧ s.rc.state = .off then (s.hwBusOff env now bus lec).hwPassive env now bus else s
  if s.rc.state ≠ .off then s.rcProcess env now s.rc.pending lec else s

/-- `li_can_slv_process`, io_can.c:291-328. -/
def process (env : AEnv) (s : Stack) (now : Nat) (bus : BusState) (lec : Lec) : Stack :=
  let s := { s with slv := s.slv.trigger env.toEnv now }
  let s := s.hwError env now bus lec
  (s.processTx env now).1

/-- `can_main_hw_handler_rx`, io_can_main_hw_handler.c:112-166, with the tunnel call at the end of
`can_sync_handler_rx` (io_can_sync_handler.c:283).  `data` are the eight bytes of the local buffer: the
first `dlc` received, the others not initialised.  `none`: does not return (C10). -/
def rx (env : AEnv) (s : Stack) (now obj dlc id : Nat) (ext : Bool) (data : List Byte) : Option Stack :=
  let s := s.setR fun c => { c with pending := .msg }
  if s.rc.state ≠ .off then some s
  else if ext then some s
  else
    (s.slv.handlerRx env.toEnv now obj dlc id data).map fun slv =>
      let s := ((s.setSlv env slv).processTx env now).1
      let s := s.ctrlRx env obj id data
      s.dataRx env obj dlc data

/-- `lcsa_init`, li_can_slv_api.c:65-97: the error number is queued as it is, without expanding it to a
message code. -/
def init (env : AEnv) (s : Stack) (baud : Nat) : Stack × Err :=
  let i := s.info.init env.crc
  let s := { s with info := i.1 }
  let s := if i.2 ≠ E.ok ∧ env.sysErr = true then
    s.setNode { s.slv.node with
      errq := (s.slv.node.errq.sendFull env.qSize (i.2.setWidth 32) 0 10 7 2 (s.slv.node.rows 0).nr).1 }
    else s
  let dl := s.info.d.mode = 3 ∨ s.info.d.mode = 2 ∨ s.info.d.mode = 0
  let s := if dl then { s with lcsa := .download } else s
  let r := s.slv.init env.toEnv (if dl then s.info.d.baud else baud)
  (s.setSlv env r.1, r.2)

/-- `lcsa_start`, li_can_slv_api.c:262-285: the end of a download that needed a restart is
acknowledged. -/
def startAck (env : AEnv) (s : Stack) : Stack :=
  if s.info.d.mode = 3 then
    let s := s.endAckn env s.info.d.comp.nr
    { s with info := s.info.setMode env.crc 4 }
  else s

/-- `lcsa_start`, li_can_slv_api.c:100-288 with `LI_CAN_SLV_RECONNECT` (133-186, 262-285): search at
startup unless the stack is in the download state. -/
def start (env : AEnv) (s : Stack) (now : Nat) : Stack × Err :=
  let r :=
    if s.lcsa = .download then
      let s := s.setR fun c => { c with state := .off }
      let s := (s.nodeMode env .stopped).1
      let s := (s.baudRate env s.slv.link.startup).1
      let s := s.setR fun c => { c with cause := .download }
      let r := s.nodeMode env .operational
      if r.2 = E.ok then ({ r.1 with lcsa := .running }, r.2) else r
    else
      let s := s.setR fun c => { c with state := .startup }
      let s := (s.nodeMode env .stopped).1
      let s := (s.baudRate env s.slv.link.startup).1
      let s := s.rcStartup env now
      s.nodeMode env .listen
  if r.2 = E.ok then ({ r.1.startAck env with lcsa := .running }, E.ok) else r

end Stack
end LiCan
