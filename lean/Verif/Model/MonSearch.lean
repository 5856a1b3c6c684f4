import Verif.Model.StackRun
/-!
# Two controllers and the automatic baud rate search

`LI_CAN_SLV_MON` together with `LI_CAN_SLV_RECONNECT`: what the stack tells the two CAN controllers.  Models the `LI_CAN_SLV_MON` branches of
source/core/io_can_reconnect.c, `li_can_slv_set_node_mode` of source/core/io_can.c, `can_config_set_baudrate` of
source/config/io_can_config.c, source/core/io_can_mon.c and the mode and rate functions of
source/arch/canpie_adapter/io_can_mon_hw.c.  Everything about the main controller is `Verif.Model.Reconnect`.

Simplifications
* Only the mode and the rate of the monitor controller are kept, with the commands given to it; its message objects and the monitored
  process image are in `Verif.Model.Mon`.  The process image of the main part is that of `Verif.Model.Slave`.
* Results of `CpCoreCanMode` and `CpCoreBitrate` for the monitor controller are ignored by the code, and it does as it is told.
* `LI_CAN_SLV_RECONNECT_MON_NODE` is not defined (no configuration of li_can_slv_config_internal.h does).
-/
namespace LiCan

/-- The monitor controller. -/
structure MonCtl where
  /-- rate of the last `CpCoreBitrate` (0: none) -/
  rate : Nat := 0
  /-- last `CpCoreCanMode` -/
  drv  : DrvMode := .stop
  /-- all `CpCoreCanMode`, newest first, with the rate at that time -/
  cmds : List (DrvMode × Nat) := []
deriving DecidableEq, Repr

namespace MonCtl

/-- `CpCoreCanMode(&can_port_mon, ..)` -/
def mode (m : MonCtl) (x : DrvMode) : MonCtl := { m with drv := x, cmds := (x, m.rate) :: m.cmds }

/-- `can_mon_hw_enable`, io_can_mon_hw.c:158-172, for the node mode `md`. -/
def enable (m : MonCtl) (md : Mode) : MonCtl := m.mode (if md = .listen then .listen else .start)

/-- `can_mon_hw_disable`, io_can_mon_hw.c:182-187. -/
def disable (m : MonCtl) : MonCtl := m.mode .stop

/-- `can_mon_hw_set_baudrate`, io_can_mon_hw.c:241-279, for a rate of the table. -/
def setRate (m : MonCtl) (md : Mode) (b : Nat) : MonCtl :=
  let m := { m.mode .stop with rate := b }
  m.mode (if md = .operational then .start else .listen)

end MonCtl

/-- The stack with both controllers. -/
structure Duo where
  s : Stack
  m : MonCtl := {}

namespace Duo

/-- change the reconnect part -/
def setR (d : Duo) (f : Recon → Recon) : Duo := { d with s := d.s.setR f }

/-- `li_can_slv_set_node_mode`, io_can.c:330-341: the result of the main controller is overwritten. -/
def nodeMode (env : AEnv) (d : Duo) (md : Mode) : Duo × Err := (⟨(d.s.nodeMode env md).1, d.m.enable md⟩, E.ok)

/-- `can_config_set_baudrate`, io_can_config.c:819-844: the monitor gets the rate if the main controller took it; the rates of the table
differ, so at most one entry matches. -/
def baudRate (env : AEnv) (d : Duo) (b : Nat) : Duo × Err :=
  let r := d.s.baudRate env b
  (⟨r.1, if r.2 = E.ok ∧ Slave.baudValid b = true then d.m.setRate r.1.slv.link.mode b else d.m⟩, r.2)

/-- `can_reconnect_next_baudrate`, io_can_reconnect.c:1036-1074. -/
def nextBaud (env : AEnv) (d : Duo) (now : Nat) : Duo :=
  let i := if d.s.rc.idx < 3 then d.s.rc.idx + 1 else 0
  let b := Stack.rcTab.getD i 0
  let d := { d with m := d.m.disable }                                        -- 1041
  let d := (d.nodeMode env .stopped).1
  let r := d.baudRate env b
  let d := if r.2 = E.ok then (r.1.nodeMode env .listen).1 else r.1
  let d := d.setR fun c => { c with idx := i, back := b, next := u32 (now + env.ms2t env.swTime) }
  { d with m := d.m.enable d.s.slv.link.mode }                                -- 1070

/-- `can_reconnect_on`, io_can_reconnect.c:801-827. -/
def rcOn (env : AEnv) (d : Duo) (now : Nat) (first : Bool) : Duo :=
  let d := { d with s := { d.s with lcsa := .reconnect } }
  let d := d.setR fun c => { c with bit0 := 0 }
  let d := if first then d.setR fun c => { c with idx := 0, next := u32 (now + env.ms2t env.swTime) }
    else d.nextBaud env now
  d.setR fun c => { c with process := true }

/-- `can_reconnect_off`, io_can_reconnect.c:833-1030. -/
def rcOff (env : AEnv) (d : Duo) (now : Nat) : Duo :=
  let baud := d.s.rc.back
  let d := { d with m := d.m.disable }                                        -- 852
  let d := d.setR fun c => { c with process := false }
  let d := (d.nodeMode env .stopped).1
  let r := d.baudRate env baud
  let r := if r.2 = E.ok then r.1.nodeMode env .operational else r
  let d := if r.2 = E.ok then { r.1 with s := { r.1.s with lcsa := .running } } else r.1
  let d := d.setR fun c => { c with state := .off, nr := u16 (c.nr + 1) }
  let d := if r.2 = E.ok then { d with s := d.s.rcDone env baud } else d
  d.setR fun c => { c with backTime := env.t2ms now }

/-- `li_can_slv_reconnect_startup`, io_can_reconnect.c:344-365. -/
def rcStartup (env : AEnv) (d : Duo) (now : Nat) : Duo :=
  if d.s.rc.state = .startup then
    let d := { d with s := d.s.notify d.s.rc.suStart .suStart }
    let d := d.setR fun c => { c with
      time := u32 (now + env.ms2t env.suTime), cause := .noTraffic, pending := .none }
    d.rcOn env now true
  else d

/-- `li_can_slv_reconnect_on_main_node_online` (409-438) and `.._recovery` (446-475). -/
def rcError (env : AEnv) (d : Duo) (now : Nat) (cause : RCause) : Duo :=
  if d.s.rc.state = .off ∧ d.s.lcsa ≠ .stopped then
    let d := { d with s := d.s.notify d.s.rc.onStart .onStart }
    let d := (d.nodeMode env .stopped).1
    let d := (d.nodeMode env .listen).1
    let d := d.setR fun c => { c with state := .on, cause := cause, pending := .lec }
    d.rcOn env now false
  else d

/-- Switch to the next rate and wait, io_can_reconnect.c:635-642 and 680-687. -/
def rcSwitch (env : AEnv) (d : Duo) (now : Nat) : Duo :=
  if d.s.rc.next < now then
    (d.nextBaud env now).setR fun c => { c with bit0 := 0, idle := 0, state := .idle }
  else d

/-- `li_can_slv_reconnect_process`, io_can_reconnect.c:542-740. -/
def rcProcess (env : AEnv) (d : Duo) (now : Nat) (intid : Pending) (lec : Lec) : Duo :=
  if d.s.rc.process = false then d
  else
    match d.s.rc.state with
    | .startup =>
      if intid = .msg then (d.setR fun c => { c with cause := .startup }).rcOff env now
      else if d.s.rc.time < now then
        (d.setR fun c => { c with cause := .noTraffic, back := d.s.slv.link.startup }).rcOff env now
      else if intid = .lec ∨ (env.checkLec = true ∧ lec ≠ .none) then
        (d.setR fun c => { c with cause := .startup, state := .on }).rcOn env now false
      else if d.s.rc.next < now then d.nextBaud env now
      else d
    | .on =>
      if intid = .msg then d.rcOff env now
      else if intid = .lec ∧ lec = .none then d.rcSwitch env now
      else
        match lec with
        | .none => d.rcOff env now
        | .bit0 =>
          let d := d.setR fun c => { c with bit0 := u16 (c.bit0 + 1) }
          if 10 ≤ d.s.rc.bit0 then d.rcOff env now else d
        | .undef => if intid = .none then d.rcOff env now else d
        | _ => (d.setR fun c => { c with bit0 := 0 }).rcSwitch env now
    | .idle =>
      let d := d.setR fun c => { c with idle := u16 (c.idle + 1) }
      if env.idleMax < d.s.rc.idle then d.setR fun c => { c with state := .on } else d
    | _ => d

/-- `can_main_hw_handler_error`, io_can_main_hw_handler.c:219-225. -/
def hwBusOff (env : AEnv) (d : Duo) (now : Nat) (bus : Stack.BusState) (lec : Lec) : Duo :=
  if bus = .busOff ∨ lec ≠ .none then
    (((d.nodeMode env .stopped).1.nodeMode env .listen).1).rcError env now .boff
  else d

/-- io_can_main_hw_handler.c:227-241: only the main controller is told to listen. -/
def hwPassive (env : AEnv) (d : Duo) (now : Nat) (bus : Stack.BusState) : Duo :=
  if bus = .passive then
    { d with s := { d.s with slv := { d.s.slv with link := (Slave.drvMode env.toEnv d.s.slv.link .listen).1 } } }.rcError env now .ewrn
  else d

/-- `can_main_hw_handler_error`, io_can_main_hw_handler.c:182-272. -/
def hwError (env : AEnv) (d : Duo) (now : Nat) (bus : Stack.BusState) (lec : Lec) : Duo :=
  let d :=
    if (bus ≠ .active ∨ lec ≠ .none) ∧ d.s.rc.state = .off then (d.hwBusOff env now bus lec).hwPassive env now bus else d
  if d.s.rc.state ≠ .off then d.rcProcess env now d.s.rc.pending lec else d

/-- `li_can_slv_process`, io_can.c:291-328. -/
def process (env : AEnv) (d : Duo) (now : Nat) (bus : Stack.BusState) (lec : Lec) : Duo :=
  let d := { d with s := { d.s with slv := d.s.slv.trigger env.toEnv now } }
  let d := d.hwError env now bus lec
  { d with s := (d.s.processTx env now).1 }

/-- CHANGE CAN BAUDRATE, io_can_sys.c:329-361, on the mode and rate of both controllers. -/
def changeBaud (env : AEnv) (l : Link) (m : MonCtl) (b : Nat) : (Link × MonCtl) × Err :=
  let mode := l.mode
  let l := (Slave.setMode env.toEnv l .stopped).1
  let m := m.enable .stopped
  let r := Slave.setBaud l b
  let m := if r.2 = E.ok ∧ Slave.baudValid b = true then m.setRate r.1.mode b else m
  if r.2 = E.ok then (((Slave.setMode env.toEnv r.1 mode).1, m.enable mode), E.ok) else ((r.1, m), r.2)

/-- Is the frame a broadcast CHANGE CAN BAUDRATE?  io_can_sync_handler.c:219-247, io_can_sys.c:217-329. -/
def isBaudMsg (env : AEnv) (s : Stack) (obj dlc id : Nat) (data : List Byte) : Prop :=
  (obj = 2 ∨ (obj = 3 ∧ env.sysObj2 = true)) ∧ dlc = 8 ∧ sysNrOfId id = 1 ∧ s.slv.node.nrMod ≠ 0 ∧ Slave.at8 data 0 = 0x02

instance (env : AEnv) (s : Stack) (obj dlc id : Nat) (data : List Byte) : Decidable (isBaudMsg env s obj dlc id data) := by
  unfold isBaudMsg; infer_instance

/-- `can_main_hw_handler_rx`, io_can_main_hw_handler.c:112-166: as `Stack.rx`; a baud rate message reaches both controllers. -/
def rx (env : AEnv) (d : Duo) (now obj dlc id : Nat) (ext : Bool) (data : List Byte) : Option Duo :=
  if d.s.rc.state = .off ∧ ext = false ∧ isBaudMsg env d.s obj dlc id data then
    let s := d.s.setR fun c => { c with pending := .msg }
    let v :=
      if Node.bit obj &&& s.slv.node.hw.isrRx ≠ 0 then
        match s.slv.node.slotRow obj with
        | some tp => (Slave.rxData env.toEnv s.slv tp id dlc data).1
        | none => s.slv
      else s.slv
    let r := changeBaud env v.link d.m (Slave.at8 data 1 * 256 + Slave.at8 data 2)
    let s := ((s.setSlv env { v with link := r.1.1, node := v.node.report env.toEnv r.2 }).processTx env now).1
    some ⟨(s.ctrlRx env obj id data).dataRx env obj dlc data, r.1.2⟩
  else (d.s.rx env now obj dlc id ext data).map fun s => { d with s := s }

/-- `lcsa_start`, li_can_slv_api.c:100-288. -/
def start (env : AEnv) (d : Duo) (now : Nat) : Duo × Err :=
  let r :=
    if d.s.lcsa = .download then
      let d := d.setR fun c => { c with state := .off }
      let d := (d.nodeMode env .stopped).1
      let d := (d.baudRate env d.s.slv.link.startup).1
      let d := d.setR fun c => { c with cause := .download }
      let r := d.nodeMode env .operational
      if r.2 = E.ok then ({ r.1 with s := { r.1.s with lcsa := .running } }, r.2) else r
    else
      let d := d.setR fun c => { c with state := .startup }
      let d := (d.nodeMode env .stopped).1
      let d := (d.baudRate env d.s.slv.link.startup).1
      let d := d.rcStartup env now
      d.nodeMode env .listen
  if r.2 = E.ok then ({ r.1 with s := { r.1.s.startAck env with lcsa := .running } }, E.ok) else r

/-- One input; `none`: the stack has not returned. -/
def step (env : AEnv) (d : Duo) : SIn → Option Duo
  | .rx now obj dlc id ext data => d.rx env now obj dlc id ext data
  | .process now bus lec => some (d.process env now bus lec)
  | .start now => some (d.start env now).1
  | .setBaud b => some (d.baudRate env b).1
  | .api (.setMode m) => some (d.nodeMode env m).1
  | x => (d.s.step env x).map fun s => { d with s := s }

/-- A history. -/
def run (env : AEnv) : Duo → List SIn → Option Duo
  | d, [] => some d
  | d, i :: is => (step env d i).bind fun d' => run env d' is

/-- Static initialisers. -/
def boot (mem : Nat → List Byte) (info : XInfo) : Duo := { s := Stack.boot mem info }

end Duo
end LiCan
