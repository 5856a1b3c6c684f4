import Verif.Model.SlaveRun
/-!
# The monitor controller and the monitored process image

The build option `LI_CAN_SLV_MON` (without `LI_CAN_SLV_MAIN_MON`): a second CAN controller on the same bus
receives the synchronous data of the master again and reads back what the main controller sent.  Models
source/core/io_can_mon.c, source/arch/canpie_adapter/io_can_mon_hw.c, io_can_mon_hw_inline.h and the
`LI_CAN_SLV_MON` branches of io_can_sync.c, io_can_sync_handler.c, io_can_config.c and io_can.c.  The main
controller, the module table and the system messages are those of `Verif.Model.Slave`.

Simplifications, in addition to those of `Verif.Model.Slave`
* The monitor members of `li_can_slv_config_module_t` and of `can_sync_t` are in `MonVars`.
* An uninterrupted call per frame: the two receive interrupts do not preempt each other.
* `memcmp(a, b, n)` is equality of the first `n` bytes.
* Changing a module type (`can_config_change_module_type`) is not modelled here.
-/
namespace LiCan

/-- Service of a message object of the monitor controller: received from the master, or received from the
own main controller; `CAN_MON_ISR_ID_RX`, `CAN_MON_ISR_ID_RX_MAIN` with `is_sync_obj`. -/
inductive MonSvc
  | rx (sync : Bool) | rxMain
deriving DecidableEq, Repr

/-- Arguments of `can_mon_define_msg_obj`, io_can_mon.c:355. -/
structure MonDef where
  id   : Nat
  mask : BitVec 16
  dlc  : Nat
  svc  : MonSvc
deriving DecidableEq, Repr

/-- The monitor conversions of a module template, `rx_mon[]`, `tx_mon[]`, `rx_mon_sync[]`, `tx_mon_sync[]`
(io_can_config_types.h:127-159). -/
structure MonTpl where
  rxMon     : Nat → Conv := fun _ => .null
  txMon     : Nat → Conv := fun _ => .null
  rxMonSync : Nat → Conv := fun _ => .null
  txMonSync : Nat → Conv := fun _ => .null

/-- The monitor controller and its driver, arbitrary in the theorems. -/
structure MonEnv extends Env where
  /-- `LI_CAN_SLV_MON_NODE_MAX_NOF_MSG_OBJ` -/
  nMon    : Nat
  /-- does the k-th call of `CpCoreBufferConfig` for the monitor succeed? -/
  monOk   : Nat → Bool
  /-- monitor conversion: CAN data, length, old object ↦ new object, return code -/
  monConv : Nat → List Byte → Nat → List Byte → List Byte × Err
  /-- content of the uninitialised local `tmp_data[8]` of `can_sync_tx_data_mon`, io_can_sync.c:815 -/
  tmp     : List Byte

/-- Variables of the monitor part. -/
structure MonVars where
  /-- `mon_msg_obj_used`, io_can_mon_hw.c:90 -/
  used      : Nat → Bool := fun _ => false
  /-- what the message objects are programmed with -/
  defs      : Nat → Option MonDef := fun _ => none
  /-- number of `CpCoreBufferConfig` calls -/
  cfgN      : Nat := 0
  /-- `can_mon_isr_inp_mask_rx` -/
  maskRx    : BitVec 32 := 0
  /-- `can_mon_isr_inp_mask_rx_main` -/
  maskMain  : BitVec 32 := 0
  /-- `can_mon_rx_msg_obj[0 .. used-1]`: message object and row -/
  rxSlots   : List (Nat × Nat) := []
  /-- `can_mon_tx_msg_obj[0 .. used-1]` -/
  txSlots   : List (Nat × Nat) := []
  /-- `rx_msg_obj_mon[]` of the rows -/
  rxObj     : Nat → Nat → Nat := fun _ _ => 0
  /-- `tx_msg_obj_mon[]` of the rows -/
  txObj     : Nat → Nat → Nat := fun _ _ => 0
  rxMon     : Nat → Nat → Conv := fun _ _ => .null
  txMon     : Nat → Nat → Conv := fun _ _ => .null
  rxMonSync : Nat → Nat → Conv := fun _ _ => .null
  txMonSync : Nat → Nat → Conv := fun _ _ => .null
  /-- `mon_pr_cnt` -/
  prCnt     : Nat := 0
  /-- `mon_pr_dlc` -/
  prDlc     : Nat := 0
  /-- `mon_pr_flag` -/
  prFlag    : Nat := 0
  /-- `mon_pr_timestamp` -/
  stamp     : Nat := 0
  /-- `mon_rx_cnt[row][obj]` -/
  rxCnt     : Nat → Nat → Nat := fun _ _ => 0
  /-- `mon_tx_cnt[row][obj]` -/
  txCnt     : Nat → Nat → Nat := fun _ _ => 0
  /-- `can_sync_data_main_tx[row].data[obj]` -/
  mainTx    : Nat → Nat → List Byte := fun _ _ => [0, 0, 0, 0, 0, 0, 0, 0]
  /-- `can_sync_data_mon_rx[row].data[obj]` -/
  monRx     : Nat → Nat → List Byte := fun _ _ => [0, 0, 0, 0, 0, 0, 0, 0]
  /-- `err.mon_pr_cnt`, `err.mon_rx_cnt[]`, `err.mon_tx_cnt[]`, `err.data[]` -/
  errPr     : Nat := 0
  errRx     : Nat → Nat := fun _ => 0
  errTx     : Nat → Nat := fun _ => 0
  errData   : Nat → Nat := fun _ => 0
  /-- rate of the last `CpCoreBitrate` call (0: none) -/
  hwRate    : Nat := 0
  /-- state of the driver after the last `CpCoreCanMode` -/
  drv       : DrvMode := .stop
  ub        : Bool := false

/-- Slave with monitor controller. -/
structure Mon where
  s : Slave
  m : MonVars := {}

namespace Mon
open Node Slave

/-! ## Registration -/

/-- `if (err == LI_CAN_SLV_ERR_OK) ...` -/
def andThen (r : Mon × Err) (f : Mon → Mon × Err) : Mon × Err := if r.2 = E.ok then f r.1 else r

/-- A `for` loop whose body returns from the function on error. -/
def loop (f : Nat → Mon → Mon × Err) : List Nat → Mon → Mon × Err
  | [], d => (d, E.ok)
  | i :: is, d => andThen (f i d) (loop f is)

/-- A function of the main part. -/
def onNode (f : Node → Node × Err) (d : Mon) : Mon × Err :=
  ({ d with s := { d.s with node := (f d.s.node).1 } }, (f d.s.node).2)

/-- A function of the monitor part. -/
def onMon (f : MonVars → MonVars × Err) (d : Mon) : Mon × Err := ({ d with m := (f d.m).1 }, (f d.m).2)

/-- `can_mon_hw_get_next_free_msg_obj`, io_can_mon_hw.c:132-156. -/
def nextFree (me : MonEnv) (m : MonVars) : Option Nat := (List.range me.nMon).find? fun i => !m.used i

/-- `can_mon_define_msg_obj` with `can_mon_hw_define_msg_obj`, io_can_mon.c:355-412,
io_can_mon_hw.c:189-239 (a refused object keeps its old programming, as for the main controller). -/
def define (me : MonEnv) (m : MonVars) (obj : Nat) (d : MonDef) : MonVars × Err :=
  if me.nMon ≤ obj then ({ m with ub := true }, E.ok)
  else
    let m' := { m with used := upd m.used obj true, cfgN := m.cfgN + 1 }
    if me.monOk m.cfgN then
      ({ m' with
          defs := upd m.defs obj (some d)
          maskRx := if d.svc = .rx true then m.maskRx ||| Node.bit obj else m.maskRx
          maskMain := if d.svc = .rxMain then m.maskMain ||| Node.bit obj else m.maskMain }, E.ok)
    else (m', E.initFailed)

/-- `can_mon_msg_obj_rx_data_cnfg`, io_can_mon.c:313-324 (table size: four per module). -/
def addRxSlot (me : MonEnv) (m : MonVars) (obj tp : Nat) : MonVars × Err :=
  if m.rxSlots.length < 4 * me.maxMod then ({ m with rxSlots := m.rxSlots ++ [(obj, tp)] }, E.ok)
  else (m, E.monRxDataCnfg)

/-- `can_mon_msg_obj_tx_data_cnfg`, io_can_mon.c:329-340 (table size 16,
li_can_slv_config_defines.h:90). -/
def addTxSlot (m : MonVars) (obj tp : Nat) : MonVars × Err :=
  if m.txSlots.length < 16 then ({ m with txSlots := m.txSlots ++ [(obj, tp)] }, E.ok)
  else (m, E.monTxDataCnfg)

/-- `if (err != OK) return err` inside the monitor part -/
def mThen (r : MonVars × Err) (f : MonVars → MonVars × Err) : MonVars × Err := if r.2 = E.ok then f r.1 else r

/-- io_can_config.c:2232-2251: the monitor object that reads transmit object `i` back. -/
def setTxMon (me : MonEnv) (tp nr i dlc : Nat) (m : MonVars) : MonVars × Err :=
  match nextFree me m with
  | none => (m, E.noMsgObjFree)
  | some o =>
    mThen (define me { m with txObj := upd m.txObj tp (upd (m.txObj tp) i o) } o ⟨syncTxId nr i, 0x7FF#16, dlc, .rxMain⟩)
      fun m => addTxSlot m o tp

/-- io_can_config.c:2318-2338: the monitor object of receive object `i`. -/
def setRxMon (me : MonEnv) (tp nr i dlc : Nat) (m : MonVars) : MonVars × Err :=
  match nextFree me m with
  | none => (m, E.noMsgObjFree)
  | some o =>
    mThen (define me { m with rxObj := upd m.rxObj tp (upd (m.rxObj tp) i o) } o ⟨syncRxId nr i, 0x7FF#16, dlc, .rx true⟩)
      fun m => addRxSlot me m o tp

/-- io_can_config.c:2221-2254 -/
def setTx (me : MonEnv) (d : Mon) (tp nr : Nat) : Mon × Err :=
  loop (fun i d =>
    andThen (onNode (fun n => txCnfg me.toEnv
        (n.setRow tp fun r => { r with txDlcSync := upd r.txDlcSync i (r.txDlc i) }) tp i nr) d) fun d =>
      onMon (setTxMon me tp nr i ((d.s.node.rows tp).txDlc i)) d)
    (List.range (d.s.node.rows tp).txObj) d

/-- io_can_config.c:2293-2340 -/
def setRx (me : MonEnv) (d : Mon) (tp nr : Nat) : Mon × Err :=
  let d := (onNode (fun n => (n.setRow tp fun r => { r with rxObjSync := r.rxObj }, E.ok)) d).1
  loop (fun i d =>
    andThen (onNode (setRx1 me.toEnv tp nr i) d) fun d =>
      onMon (setRxMon me tp nr i ((d.s.node.rows tp).rxDlc i)) d)
    (List.range (d.s.node.rows tp).rxObj) d

/-- The monitor part of the copy of the template, io_can_config.c:2182-2183. -/
def fillMon (m : MonVars) (tp : Nat) (t : MonTpl) : MonVars :=
  { m with rxMon := upd m.rxMon tp t.rxMon, txMon := upd m.txMon tp t.txMon
           rxMonSync := upd m.rxMonSync tp t.rxMonSync, txMonSync := upd m.txMonSync tp t.txMonSync }

/-- first `k` entries from `f`, the others from `g` -/
def firstK {α : Type} (k : Nat) (f g : Nat → α) : Nat → α := fun i => if i < k then f i else g i

/-- The monitor part of `can_config_sync_off`, io_can_config.c:1228, 1241. -/
def monOff (m : MonVars) (tp nRx nTx : Nat) : MonVars :=
  { m with txMonSync := upd m.txMonSync tp (firstK nTx (fun _ => .dummy) (m.txMonSync tp))
           rxMonSync := upd m.rxMonSync tp (firstK nRx (fun _ => .dummy) (m.rxMonSync tp)) }

/-- The monitor part of `can_config_sync_on`, io_can_config.c:1277, 1290. -/
def monOn (m : MonVars) (tp nRx nTx : Nat) : MonVars :=
  { m with txMonSync := upd m.txMonSync tp (firstK nTx (m.txMon tp) (m.txMonSync tp))
           rxMonSync := upd m.rxMonSync tp (firstK nRx (m.rxMon tp) (m.rxMonSync tp)) }

/-- `can_config_sync_off`, io_can_config.c:1209-1251. -/
def rowOff (me : MonEnv) (d : Mon) (tp : Nat) : Mon :=
  { s := { d.s with node := d.s.node.syncOff me.toEnv tp }
    m := monOff d.m tp (d.s.node.rows tp).rxObj (d.s.node.rows tp).txObj }

/-- `can_config_sync_on`, io_can_config.c:1258-1294. -/
def rowOn (d : Mon) (tp : Nat) : Mon :=
  { s := { d.s with node := d.s.node.syncOn tp }
    m := monOn d.m tp (d.s.node.rows tp).rxObj (d.s.node.rows tp).txObj }

/-- `can_config_set_module_silent_awake`, io_can_config.c:1715-1745: the node part is
`Node.setSilentAwake`, the monitor part that of `can_config_sync_off`/`_on`. -/
def setSilentAwake (me : MonEnv) (d : Mon) (tp st : Nat) : Mon × Err :=
  let r := d.s.node.setSilentAwake me.toEnv tp st
  ({ s := { d.s with node := r.1 }
     m := if tp < me.maxMod then
        if st = 0 then monOff d.m tp (d.s.node.rows tp).rxObj (d.s.node.rows tp).txObj
        else if st = 1 then monOn d.m tp (d.s.node.rows tp).rxObj (d.s.node.rows tp).txObj
        else d.m
      else d.m }, r.2)

/-- The common end of registration and number change (`Node.finish`). -/
def finish (me : MonEnv) (d : Mon) (tp idx nr : Nat) (nrs : List Nat) : Mon × Err :=
  let r := onNode (fun n =>
    let r := defineCtrl me.toEnv n idx nr
    let r := thenOk r fun n => Node.define me.toEnv n 6 ⟨0x602, acceptMask nrs, 8, .asyncRx⟩
    let r := thenOk r fun n => Node.define me.toEnv n 2 ⟨0x002, acceptMask nrs, 8, .rx false⟩
    thenOk r fun n =>
      if me.sysObj2 then Node.define me.toEnv n 3 ⟨0x002, acceptMask nrs, 8, .rx false⟩ else (n, E.ok)) d
  andThen r fun d => setSilentAwake me d tp (d.s.node.silent tp)

/-- `can_config_set_module`, io_can_config.c:2173-2398. -/
def setModule (me : MonEnv) (d : Mon) (tp : Nat) (tpl : Row) (mt : MonTpl) (nr : Nat) (rx tx : Nat → Nat) : Mon × Err :=
  let nr := effNr tp nr
  let d := { s := { d.s with node := d.s.node.fillRow tp tpl nr rx tx }, m := fillMon d.m tp mt : Mon }
  andThen (setTx me d tp nr) fun d =>
  andThen (setRx me d tp nr) fun d =>
    let r := finish me d tp d.s.node.nrMod nr ((List.range (tp + 1)).map fun i => (d.s.node.rows i).nr)
    ((onNode (fun n => ({ n with nrMod := n.nrMod + 1 }, E.ok)) r.1).1, r.2)

/-- `error_syserr_send` -/
def reportD (me : MonEnv) (d : Mon) (e : Err) : Mon := (onNode (fun n => (report me.toEnv n e, E.ok)) d).1

/-- `can_config_add_module`, io_can_config.c:960-1027 (`lcsa_add_module`). -/
def addModule (me : MonEnv) (d : Mon) (tpl : Row) (mt : MonTpl) (nr : Nat) (rx tx : Nat → Nat) : Mon × Err :=
  match (List.range me.maxMod).find? fun i => (d.s.node.rows i).typ = [] with
  | none => (d, E.maxModules)
  | some i =>
    if (List.range i).any fun j => (d.s.node.rows j).nr = nr then
      let r := setModule me d i tpl mt (125 + i) rx tx
      (reportD me r.1 r.2, E.redeclaredNr)
    else
      let r := setModule me d i tpl mt nr rx tx
      (reportD me r.1 r.2, E.ok)

/-- `li_can_slv_config_change_module_nr_and_identifiers`, io_can_config.c:1781-1926. -/
def changeNr (me : MonEnv) (d : Mon) (typ : List Byte) (nr act : Nat) : Mon × Err :=
  match d.s.node.findTypeNr me.toEnv typ act with
  | none => onNode (fun n => ({ n with ub := true }, E.ok)) d
  | some tp =>
    let d := (onNode (fun n => (n.setRow tp fun r => { r with nr := nr }, E.ok)) d).1
    andThen (loop (fun i d =>                                                       -- 1809-1827
        andThen (onNode (fun n => txCnfg me.toEnv n tp i nr) d) fun d =>
          onMon (fun m => define me m (m.txObj tp i) ⟨syncTxId nr i, 0x7FF#16, (d.s.node.rows tp).txDlc i, .rxMain⟩) d)
        (List.range (d.s.node.rows tp).txObj) d) fun d =>
    andThen (loop (fun i d =>                                                       -- 1851-1871
        andThen (onNode (fun n => Node.define me.toEnv n ((n.rows tp).rxMsgObj i)
          ⟨syncRxId nr i, 0x7FF#16, (n.rows tp).rxDlc i, .rx true⟩) d) fun d =>
          onMon (fun m => define me m (m.rxObj tp i) ⟨syncRxId nr i, 0x7FF#16, (d.s.node.rows tp).rxDlc i, .rx true⟩) d)
        (List.range (d.s.node.rows tp).rxObj) d) fun d =>
      finish me d tp tp nr ((List.range d.s.node.nrMod).map fun i => (d.s.node.rows i).nr)

/-- `can_config_change_module_nr`, io_can_config.c:1402-1448. -/
def changeModuleNr (me : MonEnv) (d : Mon) (tp nr : Nat) : Mon × Err :=
  let r := d.s.node.rows tp
  match me.voter with
  | none => changeNr me d r.typ nr r.nr
  | some v => match v r.typ nr r.nr with
    | .valid => andThen (changeNr me d r.typ nr r.nr) fun d => setSilentAwake me d tp 1
    | .validButSilent => andThen (changeNr me d r.typ nr r.nr) fun d => setSilentAwake me d tp 0
    | _ => (d, E.changingToInvalidNr)

/-- `li_can_slv_init`, io_can.c:97-277: message objects of both controllers, `can_sys_init`,
`can_sync_init` (which clears the buffers of the first row only, io_can_sync.c:411-412). -/
def init (me : MonEnv) (d : Mon) (baud : Nat) : Mon × Err :=
  let n := d.s.node
  let n := { n with
    nrMod := 0
    rows := fun i => if i < me.maxMod then { n.rows i with typ := [] } else n.rows i
    hw := { n.hw with
      used := fun i => if i < me.nObj then false else n.hw.used i
      defs := fun i => if i < me.nObj then none else n.hw.defs i } }
  let m := { d.m with
    used := fun i => if i < me.nMon then false else d.m.used i
    defs := fun i => if i < me.nMon then none else d.m.defs i }
  let d := { s := { d.s with node := n, link := { d.s.link with startup := baud } }, m := m : Mon }
  let r := onNode (fun n => Node.define me.toEnv n 0 ⟨0x001, 0x7FF#16, 1, .rx false⟩) d
  let r := andThen r (onMon fun m => define me m 1 ⟨0x001, 0x7FF#16, 1, .rx false⟩)          -- 192
  let r := andThen r (onMon fun m => define me m 4 ⟨0x002, 0x7FF#16, 8, .rx false⟩)          -- 200
  let r := andThen r (onNode fun n => Node.define me.toEnv n 2 ⟨0x002, 0x7FF#16, 8, .rx false⟩)
  let r := andThen r (onNode fun n =>
    if me.sysObj2 then Node.define me.toEnv n 3 ⟨0x002, 0x7FF#16, 8, .rx false⟩ else (n, E.ok))
  let r := andThen r (onNode fun n => Node.define me.toEnv n 6 ⟨0x600, 0x7FF#16, 8, .asyncRx⟩)
  let r := andThen r (onNode fun n => Node.define me.toEnv n 10 ⟨0, 0x7FF#16, 0, .tx⟩)
  andThen r fun d =>
    ({ s := { d.s with sys := sysInit me.toEnv d.s.sys, sync := syncInit me.toEnv d.s.sync }
       m := { d.m with mainTx := upd d.m.mainTx 0 fun _ => zeros8, monRx := upd d.m.monRx 0 fun _ => zeros8 } }, E.ok)

/-! ## Node mode and baud rate -/

/-- `li_can_slv_set_node_mode`, io_can.c:330-341, with `can_mon_hw_enable`, io_can_mon_hw.c:158-172: the
result of the main controller is overwritten. -/
def setMode (me : MonEnv) (d : Mon) (md : Mode) : Mon × Err :=
  ({ s := { d.s with link := (Slave.setMode me.toEnv d.s.link md).1 }
     m := { d.m with drv := if md = .listen then .listen else .start } }, E.ok)

/-- `can_mon_hw_set_baudrate`, io_can_mon_hw.c:241-279 (for an invalid rate the controller is only
stopped and started). -/
def monBaud (l : Link) (m : MonVars) (b : Nat) : MonVars × Err :=
  if b = 125 ∨ b = 250 ∨ b = 500 ∨ b = 1000 then
    ({ m with hwRate := b, drv := if l.mode = .operational then .start else .listen }, E.ok)
  else ({ m with drv := .start }, E.invalidBaudrate)

/-- Body of the loop io_can_config.c:823-842. -/
def setBaud1 (b : Nat) (r : (Link × MonVars) × Err) (t : Nat) : (Link × MonVars) × Err :=
  if b = t then
    let h := hwSetBaud { r.1.1 with cur := t } t
    if h.2 = E.ok then
      let q := monBaud h.1 r.1.2 t
      if q.2 = E.ok then (({ h.1 with stored := b, storedN := h.1.storedN + 1 }, q.1), q.2) else ((h.1, q.1), q.2)
    else ((h.1, r.1.2), h.2)
  else r

/-- `can_config_set_baudrate` (`lcsa_set_baudrate`), io_can_config.c:819-844. -/
def setBaud (d : Mon) (b : Nat) : Mon × Err :=
  let r := bdrTab.foldl (setBaud1 b) ((d.s.link, d.m), E.ok)
  ({ s := { d.s with link := r.1.1 }, m := r.1.2 }, r.2)

/-- CHANGE CAN BAUDRATE, io_can_sys.c:329-361. -/
def changeBaud (me : MonEnv) (d : Mon) (b : Nat) : Mon × Err :=
  let mode := d.s.link.mode
  let r := setMode me d .stopped
  let r := if r.2 = E.ok then setBaud r.1 b else r
  if r.2 = E.ok then setMode me r.1 mode else r

/-! ## The monitored process image -/

/-- Call of a monitor conversion `conv(can, dst, dlc)`; `none` = call through `NULL`. -/
def callMon (me : MonEnv) (c : Conv) (can old : List Byte) (dlc : Nat) : Option (List Byte × Err) :=
  match c with
  | .null => none
  | .dummy => some (old, E.ok)
  | .app k => some (me.monConv k can dlc old)

/-- Module number of a frame read back from the main controller, io_can_sync.c:863 (`CAN_CONFIG_DATA_TX_MASK`
0x400). -/
def txNrOfId (id : Nat) : Nat := u16 (((((id : Int) - 0x400) % 2^32).toNat) / 4 + 1)

/-- `++` of a `uint16_t` counter `cnt[tp][obj]` -/
def incr (c : Nat → Nat → Nat) (tp obj : Nat) : Nat → Nat → Nat := upd c tp (upd (c tp) obj (u16 (c tp obj + 1)))

/-- `can_sync_rx_data_mon`, io_can_sync.c:697-792. -/
def rxDataMon (me : MonEnv) (d : Mon) (tp id dlc : Nat) (data : List Byte) : Mon × Err :=
  let obj := syncObjOfId id
  let row := d.s.node.rows tp
  if me.chk ∧ syncNrOfId id ≠ row.nr then (d, E.monRxWrongNr)
  else if me.chk ∧ dlc ≠ row.rxDlcSync obj then (d, E.monRxWrongDlc)
  else match callMon me (d.m.rxMonSync tp obj) data (d.m.monRx tp obj) dlc with
    | none => ({ d with m := { d.m with ub := true } }, E.ok)
    | some r =>
      ({ d with m := { d.m with monRx := upd d.m.monRx tp (upd (d.m.monRx tp) obj r.1)
                                rxCnt := incr d.m.rxCnt tp obj } }, r.2)

/-- `can_sync_tx_data_mon`, io_can_sync.c:812-888. -/
def txDataMon (me : MonEnv) (d : Mon) (tp id dlc : Nat) (data : List Byte) : Mon × Err :=
  let obj := syncObjOfId id
  let row := d.s.node.rows tp
  if me.chk ∧ txNrOfId id ≠ row.nr then (d, E.monTxWrongNr)
  else if me.chk ∧ dlc ≠ row.txDlcSync obj then (d, E.monTxWrongDlc)
  else match callMon me (d.m.txMonSync tp obj) data me.tmp dlc with
    | none => ({ d with m := { d.m with ub := true } }, E.ok)
    | some r =>
      if (d.m.mainTx tp obj).take dlc = r.1.take dlc then
        ({ d with m := { d.m with txCnt := incr d.m.txCnt tp obj } }, r.2)
      else (d, E.mainMonDataTx)

/-- The loop over the receive objects in `li_can_slv_sync_check_process_image_module`,
io_can_sync.c:1366-1387: the first object that fails, and why. -/
def rxFault (d : Mon) (tp i : Nat) : Option Err :=
  if d.s.sync.cnt tp i ≠ 1 then some E.nrOfRxData
  else if d.m.rxCnt tp i ≠ 1 then some E.monNrOfRxData
  else if (d.m.monRx tp i).take ((d.s.node.rows tp).rxDlcSync i) ≠
      (d.s.node.mem ((d.s.node.rows tp).rx i)).take ((d.s.node.rows tp).rxDlcSync i) then some E.mainMonDataRx
  else none

/-- `li_can_slv_sync_check_process_image_module`, io_can_sync.c:1348-1391. -/
def checkModule (d : Mon) (now tp : Nat) : Mon × Err :=
  if (List.range (d.s.node.rows tp).txObjSync).all fun i => d.m.txCnt tp i == 1 then
    match (List.range (d.s.node.rows tp).rxObjSync).findSome? (rxFault d tp) with
    | none => ({ d with s := { d.s with sync := { d.s.sync with modTime := upd d.s.sync.modTime tp now } } }, E.ok)
    | some e =>
      if e = E.nrOfRxData then
        ({ d with s := { d.s with sync := { d.s.sync with errRx := upd d.s.sync.errRx tp (u16 (d.s.sync.errRx tp + 1)) } } }, e)
      else if e = E.monNrOfRxData then
        ({ d with m := { d.m with errRx := upd d.m.errRx tp (u16 (d.m.errRx tp + 1)) } }, e)
      else ({ d with m := { d.m with errData := upd d.m.errData tp (u16 (d.m.errData tp + 1)) } }, e)
  else ({ d with m := { d.m with errTx := upd d.m.errTx tp (u16 (d.m.errTx tp + 1)) } }, E.monNrOfTxData)

/-- call of an application function -/
def callOpt (d : Mon) (f : Option Nat) : Mon := { d with s := d.s.callOpt f }

/-- Body of the loop io_can_sync.c:1010-1035. -/
def checkStep (now : Nat) (r : Mon × Bool) (i : Nat) : Mon × Bool :=
  let c := checkModule r.1 now i
  if c.2 ≠ E.ok then
    (({ c.1 with s := { c.1.s with sync := { c.1.s.sync with valid := upd c.1.s.sync.valid i false } } }.callOpt
      (c.1.s.sync.invalidCb i)), false)
  else
    (({ c.1 with s := { c.1.s with sync := { c.1.s.sync with valid := upd c.1.s.sync.valid i true } } }.callOpt
      (c.1.s.sync.validCb i)), r.2)

/-- `li_can_slv_sync_clear_process_image`, io_can_sync.c:1312-1340. -/
def clearImage (me : MonEnv) (d : Mon) : Mon :=
  { s := Slave.clearImage me.toEnv d.s
    m := { d.m with
      prCnt := 0, prFlag := 0
      rxCnt := fun i j => if i < me.maxMod ∧ j < (d.s.node.rows i).rxObjSync then 0 else d.m.rxCnt i j
      txCnt := fun i j => if i < me.maxMod ∧ j < (d.s.node.rows i).txObjSync then 0 else d.m.txCnt i j } }

/-- `li_can_slv_sync_check_process_image`, io_can_sync.c:959-1060. -/
def checkImage (me : MonEnv) (d : Mon) (now : Nat) : Mon :=
  if d.s.sync.prFlag = 0xFFFF ∧ d.m.prFlag = 0xFFFF then
    if 1 < d.s.sync.prDlc then clearImage me d                                          -- 978
    else if 1 < d.m.prDlc then clearImage me d                                          -- 983
    else if d.s.sync.prCnt ≠ 1 then                                                     -- 990
      clearImage me { d with s := { d.s with sync := { d.s.sync with errPr := u16 (d.s.sync.errPr + 1) } } }
    else if d.m.prCnt ≠ 1 then                                                          -- 999
      clearImage me { d with m := { d.m with errPr := u16 (d.m.errPr + 1) } }
    else
      let r := (List.range d.s.node.nrMod).foldl (checkStep now) (d, true)
      if r.2 then
        clearImage me ({ r.1 with s := { r.1.s with sync := { r.1.s.sync with timeValid := now } } }.callOpt
          r.1.s.sync.allCb)
      else clearImage me r.1
  else d

/-- The capture of the application data in `can_sync_tx_data_main`, io_can_sync.c:606-634, for every object
transmitted by `can_main_sync_send_process_data`, i.e. every bit of the send register.  Eight bytes are
copied.  (Done at once: the application objects do not change during the transmission.) -/
def capture (n : Node) (reg : BitVec 32) (old : Nat → Nat → List Byte) : Nat → Nat → List Byte := fun tp obj =>
  if obj < 4 ∧ reg.getLsbD (pos tp obj) then (n.mem ((n.rows tp).tx obj)).take 8 else old tp obj

/-- A process request on the main controller, io_can_sync_handler.c:174-210. -/
def processRequest (me : MonEnv) (d : Mon) (now dlc : Nat) : Option Mon :=
  let d := checkImage me { d with s := reqRx d.s } now
  match d.s.node.sendProcessData me.toEnv with
  | none => none
  | some n =>
    let m := { d.m with mainTx := capture d.s.node d.s.node.tx.reg d.m.mainTx }
    let s := rxProcessMain me.toEnv { d.s with node := n } now dlc
    if me.sysErr ∧ 0 < s.node.errq.getCount then
      some { s := { s with node := (sendOneError me.toEnv s.node).1 }, m := m }
    else some { s := s, m := m }

/-- The row SILENT/AWAKE system commands act on, io_can_sys.c:806-848. -/
def sysTarget (env : Env) (s : Slave) (src : List Byte) (nr : Nat) : Option Nat :=
  if env.serial = serialOf src then
    (s.node.findNr env nr).filter fun tp => (s.node.rows tp).typ.take 4 = typeOf src
  else none

/-- `can_sys_msg_rx`, io_can_sys.c:181-494: the commands that reach the monitor (baud rate 0x02, number
0x20, silent/awake 0x21/0x22); everything else as in `Slave.sysMsg`. -/
def sysMsg (me : MonEnv) (d : Mon) (nr dlc : Nat) (src : List Byte) : Option (Mon × Err) :=
  let lift := (Slave.sysMsg me.toEnv d.s nr dlc src).map fun r => ({ d with s := r.1 }, r.2)
  if dlc ≠ 8 then lift
  else if nr ≠ 1 ∧ d.s.node.findNr me.toEnv nr = none then lift
  else if nr = 1 ∧ d.s.node.nrMod = 0 then lift
  else if at8 src 0 = 0x02 ∧ nr = 1 then some (changeBaud me d (at8 src 1 * 256 + at8 src 2))
  else if (at8 src 0 = 0x21 ∨ at8 src 0 = 0x22) ∧ nr ≠ 1 then
    match sysTarget me.toEnv d.s src nr with
    | some tp => some (setSilentAwake me d tp (at8 src 0 - 0x21))
    | none => some (d, E.ok)
  else if at8 src 0 = 0x20 ∧ nr ≠ 1 ∧ me.serial = serialOf src then
    match d.s.node.findNr me.toEnv nr with
    | some tp => some (changeModuleNr me d tp (at8 src 2))
    | none => lift
  else lift

/-- `can_sync_handler_rx`, io_can_sync_handler.c:102-288: a frame received by the main controller. -/
def handlerMain (me : MonEnv) (d : Mon) (now obj dlc id : Nat) (data : List Byte) : Option Mon :=
  let d :=
    if Node.bit obj &&& d.s.node.hw.isrRx ≠ 0 then
      match d.s.node.slotRow obj with
      | some tp => { d with s := (rxData me.toEnv d.s tp id dlc data).1 }
      | none => d
    else d
  let r := if obj = 0 then processRequest me d now dlc else some d
  if obj = 2 ∨ (obj = 3 ∧ me.sysObj2 = true) then
    r.bind fun d => (sysMsg me d (sysNrOfId id) dlc data).map fun r => reportD me r.1 r.2
  else r

/-- `can_mon_synchron_rx`, `can_mon_synchron_tx`, io_can_mon_hw_inline.h:72-113. -/
def slotOf (l : List (Nat × Nat)) (obj : Nat) : Option Nat :=
  (l.find? fun s => Node.bit obj &&& Node.bit s.1 ≠ 0).map (·.2)

/-- `can_sync_rx_process_mon`, io_can_sync.c:667-683. -/
def rxProcessMon (d : Mon) (now dlc : Nat) : Mon :=
  { d with m := { d.m with stamp := now, prCnt := u16 (d.m.prCnt + 1), prDlc := dlc, prFlag := 0xFFFF } }

/-- `can_sync_handler_rx_mon`, io_can_sync_handler.c:292-416: a frame received by the monitor controller.
System messages (object 4) are ignored. -/
def handlerMon (me : MonEnv) (d : Mon) (now obj dlc id : Nat) (data : List Byte) : Mon :=
  let d :=
    if Node.bit obj &&& d.m.maskRx ≠ 0 then
      match slotOf d.m.rxSlots obj with
      | some tp => (rxDataMon me d tp id dlc data).1
      | none => d
    else d
  let d :=
    if Node.bit obj &&& d.m.maskMain ≠ 0 then
      match slotOf d.m.txSlots obj with
      | some tp => (txDataMon me d tp id dlc data).1
      | none => d
    else d
  if obj = 1 then rxProcessMon (checkImage me d now) now dlc else d

/-! ## Histories -/

/-- What can happen to a slave with monitor controller. -/
inductive MIn
  /-- a frame received by the main controller -/
  | main (now obj dlc id : Nat) (data : List Byte)
  /-- a frame received by the monitor controller -/
  | mon (now obj dlc id : Nat) (data : List Byte)
  /-- the application changes one of its objects -/
  | write (ptr : Nat) (v : List Byte)
  /-- `lcsa_add_module` -/
  | add (tpl : Row) (mt : MonTpl) (nr : Nat) (rx tx : Nat → Nat)
  /-- `li_can_slv_config_set_module_silent_awake_from_type_and_nr` -/
  | silentAwakeBy (typ : List Byte) (nr st : Nat)
  /-- `lcsa_set_module_active` -/
  | setActive (typ : List Byte)
  /-- `lcsa_set_module_critical` -/
  | setCritical (typ : List Byte)
  /-- `li_can_slv_config_change_module_nr_and_identifiers` -/
  | changeNr (typ : List Byte) (nr act : Nat)
  /-- `li_can_slv_set_node_mode` -/
  | setMode (m : Mode)
  /-- `lcsa_set_baudrate` -/
  | setBaud (b : Nat)
  /-- `li_can_slv_sync_trigger_process_periode` -/
  | trigger (now : Nat)
  /-- `li_can_slv_sync_set_process_cycle_time` -/
  | setCycle (t : Nat)
  /-- `can_sync_set_pr_call_fnc` -/
  | allCb (f : Option Nat)
  /-- `li_can_slv_sync_set_process_image_valid_cbk` -/
  | validCb (typ : List Byte) (nr : Nat) (f : Option Nat)
  /-- `li_can_slv_sync_set_process_image_not_valid_cbk` -/
  | invalidCb (typ : List Byte) (nr : Nat) (f : Option Nat)
  /-- `li_can_slv_sync_set_process_request_cbk` -/
  | reqCb (typ : List Byte) (nr : Nat) (f : Option Nat)

/-- an input of the main part -/
def lift (me : MonEnv) (d : Mon) (x : In) : Option Mon := (Slave.step me.toEnv d.s x).map fun s => { d with s := s }

/-- One input; `none` if the stack does not return (only the loop of C10). -/
def step (me : MonEnv) (d : Mon) : MIn → Option Mon
  | .main now obj dlc id data => handlerMain me d now obj dlc id data
  | .mon now obj dlc id data => some (handlerMon me d now obj dlc id data)
  | .write p v => some { d with s := { d.s with node := { d.s.node with mem := upd d.s.node.mem p v } } }
  | .add tpl mt nr rx tx => some (addModule me d tpl mt nr rx tx).1
  | .silentAwakeBy typ nr st =>
    match d.s.node.findTypeNr me.toEnv typ nr with
    | some tp => some (setSilentAwake me d tp st).1
    | none => some d
  | .setActive typ =>
    match d.s.node.findType me.toEnv typ with
    | some tp => some (rowOn d tp)
    | none => some d
  | .setCritical typ =>
    match d.s.node.findType me.toEnv typ with
    | some tp => some (rowOff me d tp)
    | none => some d
  | .changeNr typ nr act => some (changeNr me d typ nr act).1
  | .setMode m => some (setMode me d m).1
  | .setBaud b => some (setBaud d b).1
  | .trigger now => lift me d (.trigger now)
  | .setCycle t => lift me d (.setCycle t)
  | .allCb f => lift me d (.allCb f)
  | .validCb typ nr f => lift me d (.validCb typ nr f)
  | .invalidCb typ nr f => lift me d (.invalidCb typ nr f)
  | .reqCb typ nr f => lift me d (.reqCb typ nr f)

/-- A history. -/
def run (me : MonEnv) : Mon → List MIn → Option Mon
  | d, [] => some d
  | d, i :: is => (step me d i).bind fun d' => run me d' is

/-- Static initialisers. -/
def boot (mem : Nat → List Byte) : Mon := { s := Slave.boot mem }

end Mon
end LiCan
