import Verif.Model.Ids
import Verif.Model.ErrQueue
import Verif.Model.Calls
/-!
# The module table, message objects and process data transmission

Models source/config/io_can_config.c, source/core/io_can_main.c, source/core/io_can.c
(`li_can_slv_init`), source/arch/canpie_adapter/io_can_main_hw.c and
include/li_can_slv/arch/io_can_main_hw_inline.h for the configuration with `LI_CAN_SLV_SYNC`,
`LI_CAN_SLV_ASYNC` and the number/type change commands, without `LI_CAN_SLV_MON`,
`LI_CAN_SLV_MAIN_MON`, `LI_CAN_SLV_BOOT`, `LI_CAN_SLV_SYNC_CRITICAL_CLEAR_OBJ`.

Simplifications
* C arrays indexed by row / object are functions on `Nat`; module templates with more than four
  objects (which would overrun the four-element arrays of the C structure) are outside the model.
* Type strings are `List Byte` without the terminating NUL; the empty string marks a free row.
  `strcmp`, `strncmp(.., 5)` and `strncmp(.., 4)` on four-character types are list equality.
* Application objects are addressed by an abstract pointer (`Nat`, 0 = `NULL`) and a conversion
  function changes only the object it is handed.
* Application callbacks are recorded in `log`; they do not call back into the stack.
* `ub` is not in the source: it becomes true when the C code would dereference `NULL`, call a
  `NULL` function or access an array out of bounds.
-/
namespace LiCan

/-- An entry of the `rx_main[]`, `tx_main[]`, `rx_main_sync[]`, `tx_main_sync[]` function pointer
arrays (include/li_can_slv/config/io_can_config_types.h:127-159): `NULL`, one of the dummy
functions of io_can_config.c:2409-2430, or an application conversion. -/
inductive Conv
  | null | dummy | app (k : Nat)
deriving DecidableEq, Repr

/-- `li_can_slv_config_module_t`, io_can_config_types.h:111-166. -/
structure Row where
  typ        : List Byte := []
  nr         : Nat := 0
  rxObj      : Nat := 0
  txObj      : Nat := 0
  rxDlc      : Nat → Nat := fun _ => 0
  txDlc      : Nat → Nat := fun _ => 0
  rx         : Nat → Nat := fun _ => 0
  tx         : Nat → Nat := fun _ => 0
  rxMain     : Nat → Conv := fun _ => .null
  txMain     : Nat → Conv := fun _ => .null
  rxMsgObj   : Nat → Nat := fun _ => 0
  rxObjSync  : Nat := 0
  txObjSync  : Nat := 0
  rxDlcSync  : Nat → Nat := fun _ => 0
  txDlcSync  : Nat → Nat := fun _ => 0
  rxMainSync : Nat → Conv := fun _ => .null
  txMainSync : Nat → Conv := fun _ => .null

/-- Answer of the module number change voter, io_can_config_types.h:184-190. -/
inductive Vote
  | valid | error | forbidden | validButSilent
deriving DecidableEq, Repr

/-- Build options and everything outside the modelled code: hardware results, application
conversions, voter. All of it is arbitrary in the theorems. -/
structure Env where
  /-- `LI_CAN_SLV_MAX_NR_OF_LOGICAL_MODULES` -/
  maxMod  : Nat
  /-- `LI_CAN_SLV_MAIN_NODE_MAX_NOF_MSG_OBJ` -/
  nObj    : Nat
  /-- `LI_CAN_SLV_SYS_OBJ2` -/
  sysObj2 : Bool
  /-- `LI_CAN_SLV_SYS_MODULE_ERROR` -/
  sysErr  : Bool
  /-- size of the system error queue -/
  qSize   : Nat
  /-- does the k-th call of `CpCoreBufferConfig` succeed? -/
  hwOk    : Nat → Bool
  /-- does the k-th call of `CpCoreFifoWrite` succeed? -/
  sendOk  : Nat → Bool
  /-- application receive conversion: CAN data, length, old object ↦ new object, return code -/
  rxConv  : Nat → List Byte → Nat → List Byte → List Byte × Err
  /-- application transmit conversion: object copy, length, old buffer ↦ new buffer, return code -/
  txConv  : Nat → List Byte → Nat → List Byte → List Byte × Err
  /-- content of the uninitialised local `data[8]` of `can_main_sync_send_process_data` -/
  garbage : List Byte
  /-- `module_nr_change_validator` (type, new number, actual number); `none` = `NULL` -/
  voter   : Option (List Byte → Nat → Nat → Vote)
  /-- `LI_CAN_SLV_SYNC_PROCESS_PERIODE_MAX` -/
  perMax  : Nat := 100
  /-- `can_port_ticks_2_msec` -/
  t2ms    : Nat → Nat := fun t => t
  /-- `can_port_msec_2_ticks` -/
  ms2t    : Nat → Nat := fun t => t
  /-- `LI_CAN_SLV_SYNC_CHECK_MODULE_NR_AND_DLC` -/
  chk     : Bool := true
  /-- does the k-th call of `CpCoreCanMode` succeed? -/
  modeOk  : Nat → Bool := fun _ => true
  /-- `LI_CAN_SLV_RECONNECT` -/
  recon   : Bool := true
  /-- `can_port_get_serialnumber` -/
  serial  : Nat := 0
  /-- boot kernel version: major, minor -/
  boot    : Nat × Nat := (0, 0)
  /-- module software version: major, minor -/
  soft    : Nat × Nat := (0, 0)
  /-- `can_port_get_identnumber`, `can_port_get_changeindex` -/
  ident   : Nat × Nat := (0, 0)
  /-- `LI_CAN_SLV_SYS_RANDOM_STATUS_ACKNOWLEDGE` -/
  randAck : Bool := false

/-- Service of a message object, `can_main_service_id_t`, with the `is_sync_obj` flag. -/
inductive Svc
  | tx | rx (sync : Bool) | asyncRx | asyncCtrlRx
deriving DecidableEq, Repr

/-- What a message object was programmed with: the arguments of `can_main_define_msg_obj`,
io_can_main.c:682. -/
structure ObjDef where
  id   : Nat
  mask : BitVec 16
  dlc  : Nat
  svc  : Svc
deriving DecidableEq, Repr

/-- Observable effects. -/
inductive Ev
  /-- frame handed to the driver (`CpCoreFifoWrite`) and whether the driver took it -/
  | frame (f : Frame) (ok : Bool)
  /-- notification of the application: silent/awake state (row, number, state) -/
  | silentCb (tp nr st : Nat)
  /-- notification of the application: type changed -/
  | typeCb (typ : List Byte)
  /-- application function called without arguments -/
  | call (fn : Nat)
  /-- system time handed to the application: seconds, zone, daylight saving -/
  | timeCb (fn : Nat) (secs : Nat) (zone : Int) (dst : Bool)
  /-- factory reset request handed to the application -/
  | resetCb (fn : Nat) (arg : Byte)
  /-- busy waiting before a status acknowledge, in microseconds -/
  | wait (us : Nat)
  /-- a call of the transfer and tunnel parts into the application -/
  | app (c : ACall)
deriving DecidableEq, Repr

/-- Message objects of the CAN controller: `msg_obj_used[]` (io_can_main_hw.c:85), what they are
programmed with, number of `CpCoreBufferConfig` calls so far, and the masks
`can_main_isr_inp_mask_rx`, `can_main_async_ctrl_objs_mask` (io_can_main.c:173-179; the other
masks are never read). -/
structure Hw where
  used     : Nat → Bool := fun _ => false
  defs     : Nat → Option ObjDef := fun _ => none
  cfgN     : Nat := 0
  isrRx    : BitVec 32 := 0
  ctrlMask : BitVec 32 := 0

/-- `can_main_sync_process_tx_data_ctrl`, io_can_main.c:200-239. -/
structure TxCtl where
  id   : Nat → Nat → Nat := fun _ _ => 0
  dlc  : Nat → Nat → Nat := fun _ _ => 0
  reg  : BitVec 32 := 0
  last : Nat := 0

/-- A template registered by `can_config_change_module_type_add` (io_can_config_types.h:199-205,
without the callback pointer); `row.rx`/`row.tx` are the registered data pointers. -/
structure ChgType where
  row : Row
  hasCb : Bool

/-- The static variables of the modelled files. -/
structure Node where
  /-- `can_config_module_tab`, io_can_config.c:149 -/
  rows    : Nat → Row
  /-- `can_config_module_silent` (0 SILENT, 1 AWAKE) -/
  silent  : Nat → Nat
  /-- `can_config_nr_of_modules`, io_can_config.c:133 -/
  nrMod   : Nat
  /-- `can_config_async_ctrl_rx_objs`, io_can_config.c:138 -/
  ctrlObj : Nat → Nat
  /-- `can_config_change_module_type_tab` -/
  chg     : Nat → Option ChgType
  hw      : Hw
  tx      : TxCtl
  /-- `li_can_slv_sync_main_rx_msg_obj[0 .. used-1]`: message object and row, io_can_main.c:183-187 -/
  slots   : List (Nat × Nat)
  /-- application objects -/
  mem     : Nat → List Byte
  errq    : ErrQ
  /-- number of `CpCoreFifoWrite` calls so far -/
  sendN   : Nat
  /-- effects, latest first -/
  log     : List Ev
  ub      : Bool

namespace Node

/-- Static initialisers: rows are unused, default numbers 125, 126, 127, 127, ...
(io_can_config.c:149-620, li_can_slv_config_defines.h `LI_CAN_SLV_CONFIG_DEF_MOD_NR1..8`), all
modules AWAKE. -/
def boot (mem : Nat → List Byte) : Node :=
  { rows := fun i => { nr := if i = 0 then 125 else if i = 1 then 126 else 127 }
    silent := fun _ => 1, nrMod := 0, ctrlObj := fun _ => 0, chg := fun _ => none
    hw := {}, tx := {}, slots := [], mem := mem, errq := .boot, sendN := 0, log := [], ub := false }

/-- `if (err == LI_CAN_SLV_ERR_OK) ...` / `if (err != OK) return err` sequencing. -/
def thenOk (r : Node × Err) (f : Node → Node × Err) : Node × Err :=
  if r.2 = E.ok then f r.1 else r

/-- A `for` loop whose body returns from the function on error. -/
def forErr (f : Nat → Node → Node × Err) : List Nat → Node → Node × Err
  | [], n => (n, E.ok)
  | i :: is, n => thenOk (f i n) (forErr f is)

/-- A `for` loop without early exit. -/
def forDo (f : Nat → Node → Node) : List Nat → Node → Node
  | [], n => n
  | i :: is, n => forDo f is (f i n)

/-- Update one row. -/
def setRow (n : Node) (tp : Nat) (f : Row → Row) : Node :=
  { n with rows := upd n.rows tp (f (n.rows tp)) }

/-- `error_syserr_send(err, ERR_LVL_INFO, can_config_get_module_nr_main(), ..)`,
io_can_config.c:995, 1015, io_can_main.c:661; compiled in with `LI_CAN_SLV_SYS_MODULE_ERROR`. -/
def report (env : Env) (n : Node) (e : Err) : Node :=
  if env.sysErr ∧ e ≠ E.ok then
    { n with errq := (n.errq.syserrSend env.qSize e prioInfo (n.rows 0).nr).1 }
  else n

/-- `can_main_hw_send_msg`, io_can_main_hw.c:334-358. -/
def send (env : Env) (n : Node) (f : Frame) : Node × Err :=
  ({ n with log := .frame f (env.sendOk n.sendN) :: n.log, sendN := n.sendN + 1 },
   if env.sendOk n.sendN then E.ok else E.msgSend)

/-- `can_main_hw_get_next_free_msg_obj`, io_can_main_hw.c:147-171. -/
def nextFree (env : Env) (n : Node) : Option Nat :=
  (List.range env.nObj).find? fun i => !n.hw.used i

/-- `1L << msg_obj` stored in 32 bit. -/
def bit (i : Nat) : BitVec 32 := 1#32 <<< i

/-- `can_main_define_msg_obj` with `can_main_hw_define_msg_obj`, io_can_main.c:682-753,
io_can_main_hw.c:211-294.  If the driver refuses, the object keeps its old programming
(assumption about the driver) but stays marked as used. -/
def define (env : Env) (n : Node) (obj : Nat) (d : ObjDef) : Node × Err :=
  if env.nObj ≤ obj then ({ n with ub := true }, E.ok)          -- msg_obj_used[msg_obj] out of bounds
  else
    let hw := { n.hw with used := upd n.hw.used obj true, cfgN := n.hw.cfgN + 1 }
    if env.hwOk n.hw.cfgN then
      ({ n with hw := { hw with
          defs := upd n.hw.defs obj (some d)
          isrRx := if d.svc = .rx true then hw.isrRx ||| bit obj else hw.isrRx
          ctrlMask := if d.svc = .asyncCtrlRx then hw.ctrlMask ||| bit obj else hw.ctrlMask } },
       E.ok)
    else ({ n with hw := hw }, E.initFailed)

/-- `can_main_msg_obj_rx_data_cnfg`, io_can_main.c:493-506 (table size
`LI_CAN_SLV_MAX_NR_OF_LOGICAL_MODULES * 4`, li_can_slv_config_defines.h:85). -/
def addSlot (env : Env) (n : Node) (obj tp : Nat) : Node × Err :=
  if n.slots.length < 4 * env.maxMod then ({ n with slots := n.slots ++ [(obj, tp)] }, E.ok)
  else (n, E.rxDataCnfg)

/-- `can_main_synchron_rx`, io_can_main_hw_inline.h:71-87: row for a received message object;
`none` = `ERR_MSG_CAN_MAIN_RX_WRONG_SLOT`.  (The masks `1L << msg_obj` are compared; for
message objects below 32 that is equality.) -/
def slotRow (n : Node) (obj : Nat) : Option Nat :=
  (n.slots.find? fun s => bit obj &&& bit s.1 ≠ 0).map (·.2)

/-- position of object `obj` of row `tp` in the send register, io_can_main.c:450-451 -/
def pos (tp obj : Nat) : Nat := 4 * tp + obj

/-- `can_main_sync_process_tx_data_cnfg`, io_can_main.c:427-454. -/
def txCnfg (env : Env) (n : Node) (tp obj nr : Nat) : Node × Err :=
  if env.maxMod ≤ tp then (n, E.overTablePos)
  else if 4 ≤ obj then (n, E.overObjectNr)
  else
    ({ n with tx :=
        { id := upd n.tx.id tp (upd (n.tx.id tp) obj (syncTxId nr obj))
          dlc := upd n.tx.dlc tp (upd (n.tx.dlc tp) obj ((n.rows tp).txDlc obj))
          reg := n.tx.reg ||| ((1#32 <<< obj) <<< (4 * tp))
          last := pos tp obj } }, E.ok)

/-- `can_main_synchron_tx_data_off`, io_can_main.c:462-469. -/
def txOff (n : Node) (tp obj : Nat) : Node :=
  { n with tx := { n.tx with reg := n.tx.reg &&& ~~~ ((1#32 <<< obj) <<< (4 * tp)) } }

/-- `can_main_synchron_tx_data_on`, io_can_main.c:477-484. -/
def txOn (n : Node) (tp obj : Nat) : Node :=
  { n with tx := { n.tx with reg := n.tx.reg ||| ((1#32 <<< obj) <<< (4 * tp)) } }

/-- call of a receive conversion: `conv(can, ptr, dlc)` -/
def callRx (env : Env) (n : Node) (c : Conv) (can : List Byte) (ptr dlc : Nat) : Node × Err :=
  match c with
  | .null => ({ n with ub := true }, E.ok)
  | .dummy => (n, E.ok)
  | .app k =>
    let r := env.rxConv k can dlc (n.mem ptr)
    ({ n with mem := upd n.mem ptr r.1 }, r.2)

/-- eight zero bytes, io_can_config.c:1212 -/
def zeros8 : List Byte := [0, 0, 0, 0, 0, 0, 0, 0]

/-- `can_config_sync_off`, io_can_config.c:1209-1251. -/
def syncOff (env : Env) (n : Node) (tp : Nat) : Node :=
  let n := n.setRow tp fun r => { r with txObjSync := 0 }
  let n := forDo (fun i n => (n.txOff tp i).setRow tp fun r =>
    { r with txDlcSync := upd r.txDlcSync i 0, txMainSync := upd r.txMainSync i .dummy })
    (List.range (n.rows tp).txObj) n
  let n := n.setRow tp fun r => { r with rxObjSync := 0 }
  let n := forDo (fun i n => n.setRow tp fun r =>
    { r with rxDlcSync := upd r.rxDlcSync i 0, rxMainSync := upd r.rxMainSync i .dummy })
    (List.range (n.rows tp).rxObj) n
  forDo (fun i n =>
    (n.callRx env ((n.rows tp).rxMain i) zeros8 ((n.rows tp).rx i) ((n.rows tp).rxDlc i)).1)
    (List.range (n.rows tp).rxObj) n

/-- `can_config_sync_on`, io_can_config.c:1258-1294. -/
def syncOn (n : Node) (tp : Nat) : Node :=
  let n := n.setRow tp fun r => { r with txObjSync := r.txObj }
  let n := forDo (fun i n => (n.txOn tp i).setRow tp fun r =>
    { r with txDlcSync := upd r.txDlcSync i (r.txDlc i)
             txMainSync := upd r.txMainSync i (r.txMain i) })
    (List.range (n.rows tp).txObj) n
  let n := n.setRow tp fun r => { r with rxObjSync := r.rxObj }
  forDo (fun i n => n.setRow tp fun r =>
    { r with rxDlcSync := upd r.rxDlcSync i (r.rxDlc i)
             rxMainSync := upd r.rxMainSync i (r.rxMain i) })
    (List.range (n.rows tp).rxObj) n

/-- `can_config_set_module_silent_awake`, io_can_config.c:1715-1745. -/
def setSilentAwake (env : Env) (n : Node) (tp st : Nat) : Node × Err :=
  if tp < env.maxMod then
    let n := { n with silent := upd n.silent tp st
                      log := .silentCb tp (n.rows tp).nr st :: n.log }
    if st = 0 then (n.syncOff env tp, E.ok)
    else if st = 1 then (n.syncOn tp, E.ok)
    else (n, E.invalidSilentAwake)
  else (n, E.wrongTablePos)

/-- `get_table_pos_from_type_and_actual_module_number`, io_can_config.c:2503-2519; `none` stands
for the returned `LI_CAN_SLV_MAX_NR_OF_LOGICAL_MODULES`. -/
def findTypeNr (env : Env) (n : Node) (typ : List Byte) (nr : Nat) : Option Nat :=
  (List.range env.maxMod).find? fun i => (n.rows i).typ = typ ∧ (n.rows i).nr = nr

/-- `can_config_module_type_valid`, io_can_config.c:1652-1667; `none` = MODULE_TYPE_NOT_FOUND. -/
def findType (env : Env) (n : Node) (typ : List Byte) : Option Nat :=
  (List.range env.maxMod).find? fun i => (n.rows i).typ = typ

/-- `can_config_module_nr_valid`, io_can_config.c:1483-1496: first row with that number (rows
which were never registered have their default number), and its silent/awake state. -/
def findNr (env : Env) (n : Node) (nr : Nat) : Option Nat :=
  (List.range env.maxMod).find? fun i => (n.rows i).nr = nr

/-- `can_config_get_async_ctrl_rx_obj`, io_can_config.c:2477-2495, followed by the definition of
the object, io_can_config.c:1886-1891 and 2355-2360. -/
def defineCtrl (env : Env) (n : Node) (idx nr : Nat) : Node × Err :=
  if env.maxMod ≤ idx then (n, E.wrongTablePos)
  else match n.nextFree env with
    | none => (n, E.noMsgObjFree)
    | some o =>
      define env { n with ctrlObj := upd n.ctrlObj idx o } o
        ⟨asyncCtrlRxId nr, 0x7FF#16, 8, .asyncCtrlRx⟩

/-- The common end of `can_config_set_module` (io_can_config.c:2353-2393) and
`li_can_slv_config_change_module_nr_and_identifiers` (1884-1924): asynchronous control object,
asynchronous data and system filters for the numbers `nrs`, silent/awake state. -/
def finish (env : Env) (n : Node) (tp idx nr : Nat) (nrs : List Nat) : Node × Err :=
  let r := defineCtrl env n idx nr
  let r := thenOk r fun n => define env n 6 ⟨0x602, acceptMask nrs, 8, .asyncRx⟩
  let r := thenOk r fun n => define env n 2 ⟨0x002, acceptMask nrs, 8, .rx false⟩
  let r := thenOk r fun n =>
    if env.sysObj2 then define env n 3 ⟨0x002, acceptMask nrs, 8, .rx false⟩ else (n, E.ok)
  thenOk r fun n => setSilentAwake env n tp (n.silent tp)

/-- io_can_config.c:2182-2213: copy of the template into the row, number, pointers. -/
def fillRow (n : Node) (tp : Nat) (tpl : Row) (nr : Nat) (rx tx : Nat → Nat) : Node :=
  n.setRow tp fun _ => { tpl with nr := nr, rx := rx, tx := tx, txObjSync := tpl.txObj }

/-- io_can_config.c:2221-2254: transmit objects of a new module. -/
def setTx (env : Env) (n : Node) (tp nr : Nat) : Node × Err :=
  forErr (fun i n =>
    txCnfg env (n.setRow tp fun r => { r with txDlcSync := upd r.txDlcSync i (r.txDlc i) }) tp i nr)
    (List.range (n.rows tp).txObj) n

/-- Body of the loop io_can_config.c:2295-2340: one receive object of a new module. -/
def setRx1 (env : Env) (tp nr i : Nat) (n : Node) : Node × Err :=
  let n := n.setRow tp fun r => { r with rxDlcSync := upd r.rxDlcSync i (r.rxDlc i) }
  match n.nextFree env with
  | none => (n, E.noMsgObjFree)
  | some o =>
    let n := n.setRow tp fun r => { r with rxMsgObj := upd r.rxMsgObj i o }
    thenOk (define env n o ⟨syncRxId nr i, 0x7FF#16, (n.rows tp).rxDlc i, .rx true⟩) fun n =>
      addSlot env n o tp

/-- io_can_config.c:2293-2340: receive objects of a new module. -/
def setRx (env : Env) (n : Node) (tp nr : Nat) : Node × Err :=
  let n := n.setRow tp fun r => { r with rxObjSync := r.rxObj }
  forErr (setRx1 env tp nr) (List.range (n.rows tp).rxObj) n

/-- io_can_config.c:2185-2188: a number outside 2..124 is replaced by the default of the row. -/
def effNr (tp nr : Nat) : Nat := if 124 < nr ∨ nr < 2 then u16 (125 + tp) else nr

/-- `can_config_set_module`, io_can_config.c:2173-2398. -/
def setModule (env : Env) (n : Node) (tp : Nat) (tpl : Row) (nr : Nat) (rx tx : Nat → Nat) :
    Node × Err :=
  let nr := effNr tp nr
  let n := n.fillRow tp tpl nr rx tx
  thenOk (setTx env n tp nr) fun n =>
  thenOk (setRx env n tp nr) fun n =>
    let r := finish env n tp n.nrMod nr ((List.range (tp + 1)).map fun i => (n.rows i).nr)
    ({ r.1 with nrMod := r.1.nrMod + 1 }, r.2)                  -- 2395: also if finish failed

/-- `can_config_add_module`, io_can_config.c:960-1027 (`lcsa_add_module`, li_can_slv_api.c:290). -/
def addModule (env : Env) (n : Node) (tpl : Row) (nr : Nat) (rx tx : Nat → Nat) : Node × Err :=
  match (List.range env.maxMod).find? fun i => (n.rows i).typ = [] with
  | none => (n, E.maxModules)                                               -- 1023
  | some i =>
    if (List.range i).any fun j => (n.rows j).nr = nr then
      let r := setModule env n i tpl (125 + i) rx tx                         -- 990
      (report env r.1 r.2, E.redeclaredNr)
    else
      let r := setModule env n i tpl nr rx tx                                -- 1010
      (report env r.1 r.2, E.ok)                                             -- 1018

/-- io_can_config.c:1809-1827: new identifiers of the transmit objects. -/
def renumTx (env : Env) (n : Node) (tp nr : Nat) : Node × Err :=
  forErr (fun i n => txCnfg env n tp i nr) (List.range (n.rows tp).txObj) n

/-- io_can_config.c:1851-1871: new identifiers of the receive objects. -/
def renumRx (env : Env) (n : Node) (tp nr : Nat) : Node × Err :=
  forErr (fun i n => define env n ((n.rows tp).rxMsgObj i)
      ⟨syncRxId nr i, 0x7FF#16, (n.rows tp).rxDlc i, .rx true⟩)
    (List.range (n.rows tp).rxObj) n

/-- `li_can_slv_config_change_module_nr_and_identifiers`, io_can_config.c:1781-1926.  The result
of the lookup is not checked: if nothing is found, line 1795 writes behind the table. -/
def changeNr (env : Env) (n : Node) (typ : List Byte) (nr act : Nat) : Node × Err :=
  match n.findTypeNr env typ act with
  | none => ({ n with ub := true }, E.ok)
  | some tp =>
    let n := n.setRow tp fun r => { r with nr := nr }
    thenOk (renumTx env n tp nr) fun n =>
    thenOk (renumRx env n tp nr) fun n =>
      finish env n tp tp nr ((List.range n.nrMod).map fun i => (n.rows i).nr)

/-- `can_config_change_module_nr`, io_can_config.c:1402-1448. -/
def changeModuleNr (env : Env) (n : Node) (tp nr : Nat) : Node × Err :=
  let r := n.rows tp
  match env.voter with
  | none => changeNr env n r.typ nr r.nr
  | some v => match v r.typ nr r.nr with
    | .valid => thenOk (changeNr env n r.typ nr r.nr) fun n => setSilentAwake env n tp 1
    | .validButSilent => thenOk (changeNr env n r.typ nr r.nr) fun n => setSilentAwake env n tp 0
    | _ => (n, E.changingToInvalidNr)

/-- `li_can_slv_config_set_module_silent_awake_from_type_and_nr`, io_can_config.c:1958-1975. -/
def setSilentAwakeBy (env : Env) (n : Node) (typ : List Byte) (nr st : Nat) : Node × Err :=
  match n.findTypeNr env typ nr with
  | some tp => setSilentAwake env n tp st
  | none => (n, E.moduleNotFound)

/-- `can_config_set_active`, io_can_config.c:1083-1139 (`lcsa_set_module_active`). -/
def setActive (env : Env) (n : Node) (typ : List Byte) : Node × Err :=
  match n.findType env typ with
  | some tp => (n.syncOn tp, E.ok)
  | none => (n, E.typeNotFound)

/-- `can_config_set_critical`, io_can_config.c:1145-1201 (`lcsa_set_module_critical`). -/
def setCritical (env : Env) (n : Node) (typ : List Byte) : Node × Err :=
  match n.findType env typ with
  | some tp => (n.syncOff env tp, E.ok)
  | none => (n, E.typeNotFound)

/-- `can_config_change_module_type_add`, io_can_config.c:2087-2108. -/
def changeTypeAdd (env : Env) (n : Node) (typ : List Byte) (tpl : Row) (rx tx : Nat → Nat)
    (hasCb : Bool) : Node × Err :=
  match n.findType env typ with
  | some tp => ({ n with chg := upd n.chg tp (some ⟨{ tpl with rx := rx, tx := tx }, hasCb⟩) }, E.ok)
  | none => (n, E.typeNotFound)

/-- io_can_config.c:2041-2051: transmit objects of all awake modules. -/
def retx (env : Env) : List Nat → Node × Err → Node × Err
  | [], r => r
  | j :: js, r =>
    if r.1.silent j = 1 then
      retx env js ((List.range (r.1.rows j).txObj).foldl
        (fun r i => txCnfg env r.1 j i (r.1.rows j).nr) r)
    else retx env js r

/-- `can_config_change_module_type`, io_can_config.c:1988-2068.  `err` ends up as the result of
the last `can_main_sync_process_tx_data_cnfg`. -/
def changeType (env : Env) (n : Node) (tp : Nat) (typ : List Byte) : Node × Err :=
  match n.chg tp with
  | none => (n, E.typeChangeFailed)
  | some c =>
    if c.row.typ.take 4 = typ.take 4 then
      let n := n.setRow tp fun r =>
        { r with typ := c.row.typ
                 rxObj := c.row.rxObj, rxObjSync := c.row.rxObjSync
                 rx := c.row.rx, rxDlc := c.row.rxDlc, rxMain := c.row.rxMain
                 rxDlcSync := c.row.rxDlc, rxMainSync := c.row.rxMainSync
                 txObj := c.row.txObj, txObjSync := c.row.txObjSync
                 tx := c.row.tx, txDlc := c.row.txDlc, txMain := c.row.txMain
                 txDlcSync := c.row.txDlc, txMainSync := c.row.txMainSync }
      let n := { n with tx := { n.tx with reg := 0, last := 0 } }
      let r := retx env (List.range n.nrMod) (n, E.ok)
      if c.hasCb then ({ r.1 with log := .typeCb typ :: r.1.log }, r.2) else r
    else (n, E.ok)

/-- The message object part of `li_can_slv_init`, io_can.c:97-246, with `can_config_init`
(io_can_config.c:747-776) and `can_main_hw_msg_obj_init` (io_can_main_hw.c:131-137).  Everything
else (masks, slot table, send register, silent states) keeps its value. -/
def init (env : Env) (n : Node) : Node × Err :=
  let n := { n with
    nrMod := 0
    rows := fun i => if i < env.maxMod then { n.rows i with typ := [] } else n.rows i
    hw := { n.hw with
      used := fun i => if i < env.nObj then false else n.hw.used i
      defs := fun i => if i < env.nObj then none else n.hw.defs i } }
  let r := define env n 0 ⟨0x001, 0x7FF#16, 1, .rx false⟩
  let r := thenOk r fun n => define env n 2 ⟨0x002, 0x7FF#16, 8, .rx false⟩
  let r := thenOk r fun n =>
    if env.sysObj2 then define env n 3 ⟨0x002, 0x7FF#16, 8, .rx false⟩ else (n, E.ok)
  let r := thenOk r fun n => define env n 6 ⟨0x600, 0x7FF#16, 8, .asyncRx⟩
  thenOk r fun n => define env n 10 ⟨0, 0x7FF#16, 0, .tx⟩

/-! ## Transmission of the process data -/

/-- Local state of `can_main_sync_send_process_data`, io_can_main.c:586-603. -/
structure SendSt where
  send : BitVec 32
  cur  : Nat
  buf  : List Byte
  node : Node

/-- call of a transmit conversion: `conv(src, can, dlc)` (not `NULL`), io_can_sync.c:638-642 -/
def callTx (env : Env) (c : Conv) (app : List Byte) (dlc : Nat) (buf : List Byte) :
    List Byte × Err :=
  match c with
  | .app k => env.txConv k app dlc buf
  | _ => (buf, E.ok)

/-- One transmission, io_can_main.c:635-666, with `can_sync_tx_data_main` (io_can_sync.c:599-656):
the object is copied, converted and handed to the driver; errors are reported. -/
def sendOne (env : Env) (n : Node) (tp obj : Nat) (buf : List Byte) : Node × List Byte :=
  let row := n.rows tp
  if row.tx obj = 0 ∨ row.txMainSync obj = .null then
    ({ n with ub := true }, buf)                       -- NULL dereferenced / called
  else
    let r := callTx env (row.txMainSync obj) (n.mem (row.tx obj)) (row.txDlc obj) buf
    if r.2 = E.ok then
      let s := n.send env ⟨n.tx.id tp obj, n.tx.dlc tp obj, r.1.take (n.tx.dlc tp obj)⟩
      (report env s.1 s.2, r.1)
    else (report env n r.2, r.1)

/-- One step of the nested loops io_can_main.c:606-668.  `none`: the function returns.  The inner
loop (626-630) is entered only with `send ≠ 0` and keeps that, so its iterations can be
interleaved with the outer test. If the lowest bit is clear and `cur` is beyond `last` the outer
loop repeats with nothing changed. -/
def sendStep (env : Env) (s : SendSt) : Option SendSt :=
  if s.send = 0 then none
  else if s.cur ≤ s.node.tx.last ∧ s.send.getLsbD 0 = false then
    some { s with cur := s.cur + 1, send := s.send >>> 1 }
  else if s.send.getLsbD 0 then
    let r := sendOne env s.node (s.cur / 4) (s.cur % 4) s.buf
    some { send := s.send >>> 1, cur := s.cur + 1, buf := r.2, node := r.1 }
  else some s

/-- At most `k` steps; `none` if the loop is still running after them. -/
def sendRun (env : Env) : Nat → SendSt → Option Node
  | 0, s => if s.send = 0 then some s.node else none
  | k + 1, s => match sendStep env s with
    | none => some s.node
    | some s' => sendRun env k s'

/-- `can_main_sync_send_process_data`, io_can_main.c:586-669; `none` if it does not return.
(32 steps are enough, see `sendRun_stable`.) -/
def sendProcessData (env : Env) (n : Node) : Option Node :=
  sendRun env 32 ⟨n.tx.reg, 0, env.garbage, n⟩

/-- `can_main_send_queue_system_tx`, io_can_main.c:524-541: system message on behalf of a module
number; only sent if the number is in the table and that row is AWAKE. -/
def sendSys (env : Env) (n : Node) (nr : Nat) (data : List Byte) : Node × Err :=
  match n.findNr env nr with
  | some tp =>
    if n.silent tp = 1 then ((n.send env ⟨sysTxId nr, 8, data⟩).1, E.ok) else (n, E.ok)
  | none => (n, E.ok)

end Node
end LiCan
