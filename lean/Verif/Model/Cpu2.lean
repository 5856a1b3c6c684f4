import Verif.Model.Reconnect
/-!
# The monitor CPU of a device with two CPUs

The build option `LI_CAN_SLV_MAIN_MON` (without `LI_CAN_SLV_MON`): two CPUs run the same software on the same bus.
`can_mainmon_type` tells them apart (source/core/io_can.c:125).  On the main CPU (`CAN_MAINMON_TYPE_MAIN`) the
stack is the one of `Verif.Model.Slave` and `Verif.Model.Stack`; here is what it does on the monitor CPU
(`CAN_MAINMON_TYPE_MON`): the synchronous part, the system messages, the node mode and the error handler.

Simplifications, in addition to those of `Verif.Model.Slave`
* The members `tx_main_rx_mon[]`, `tx_main_rx_mon_sync[]`, `tx_main_rx_msg_obj_mon[]` of a row are in `Cpu2Row`; the
  conversions have the type of a receive conversion and are taken from the same family `Env.rxConv`.
* The asynchronous part is not there: control messages are thrown away on this CPU (io_can_async.c:362-367), so no
  transfer and no tunnel is ever opened by a message; what the application sends by calling the transfer functions
  itself is outside this model.
* The reconnect state stays `CAN_RECONNECT_STATE_OFF` (li_can_slv_api.c:123-227, io_can_main_hw_handler.c:215-253).
-/
namespace LiCan

/-- The members of `li_can_slv_config_module_t` used on the monitor CPU only, io_can_config_types.h:129, 139, 154. -/
structure Cpu2Row where
  /-- `tx_main_rx_mon[]` -/
  conv     : Nat → Conv := fun _ => .null
  /-- `tx_main_rx_mon_sync[]` -/
  convSync : Nat → Conv := fun _ => .null
  /-- `tx_main_rx_msg_obj_mon[]` -/
  obj      : Nat → Nat := fun _ => 0

/-- State of the monitor CPU. -/
structure Cpu2 where
  s : Slave
  /-- the additional members of the rows -/
  x : Nat → Cpu2Row := fun _ => {}

namespace Cpu2
open Node Slave

/-! ## Registration and module table -/

/-- replace the node -/
def setNode (c : Cpu2) (n : Node) : Cpu2 := { c with s := { c.s with node := n } }

/-- A function of the part shared with the main CPU. -/
def onNode (f : Node → Node × Err) (c : Cpu2) : Cpu2 × Err := (c.setNode (f c.s.node).1, (f c.s.node).2)

/-- `if (err == LI_CAN_SLV_ERR_OK) ...` -/
def andThen (r : Cpu2 × Err) (f : Cpu2 → Cpu2 × Err) : Cpu2 × Err := if r.2 = E.ok then f r.1 else r

/-- A `for` loop whose body returns from the function on error. -/
def loop (f : Nat → Cpu2 → Cpu2 × Err) : List Nat → Cpu2 → Cpu2 × Err
  | [], c => (c, E.ok)
  | i :: is, c => andThen (f i c) (loop f is)

/-- change the additional members of a row -/
def setX (c : Cpu2) (tp : Nat) (f : Cpu2Row → Cpu2Row) : Cpu2 := { c with x := upd c.x tp (f (c.x tp)) }

/-- io_can_config.c:1218-1225: the part of `can_config_sync_off` for these members. -/
def xOff (k : Nat) (r : Cpu2Row) : Cpu2Row :=
  { r with convSync := fun i => if i < k then .dummy else r.convSync i }

/-- io_can_config.c:1267-1274: the part of `can_config_sync_on` for these members. -/
def xOn (k : Nat) (r : Cpu2Row) : Cpu2Row :=
  { r with convSync := fun i => if i < k then r.conv i else r.convSync i }

/-- `can_config_sync_off`, io_can_config.c:1209-1251. -/
def syncOff (env : Env) (c : Cpu2) (tp : Nat) : Cpu2 :=
  (c.setX tp (xOff (c.s.node.rows tp).txObj)).setNode (c.s.node.syncOff env tp)

/-- `can_config_sync_on`, io_can_config.c:1258-1294. -/
def syncOn (c : Cpu2) (tp : Nat) : Cpu2 :=
  (c.setX tp (xOn (c.s.node.rows tp).txObj)).setNode (c.s.node.syncOn tp)

/-- `can_config_set_module_silent_awake`, io_can_config.c:1715-1745. -/
def setSilentAwake (env : Env) (c : Cpu2) (tp st : Nat) : Cpu2 × Err :=
  if tp < env.maxMod then
    let n := c.s.node
    let c := c.setNode { n with silent := upd n.silent tp st, log := .silentCb tp (n.rows tp).nr st :: n.log }
    if st = 0 then (c.syncOff env tp, E.ok)
    else if st = 1 then (c.syncOn tp, E.ok)
    else (c, E.invalidSilentAwake)
  else (c, E.wrongTablePos)

/-- The common end of `can_config_set_module` (io_can_config.c:2353-2393) and
`li_can_slv_config_change_module_nr_and_identifiers` (1884-1924), as `Node.finish`. -/
def finish (env : Env) (c : Cpu2) (tp idx nr : Nat) (nrs : List Nat) : Cpu2 × Err :=
  let r := c.onNode (defineCtrl env · idx nr)
  let r := andThen r (onNode (define env · 6 ⟨0x602, acceptMask nrs, 8, .asyncRx⟩))
  let r := andThen r (onNode (define env · 2 ⟨0x002, acceptMask nrs, 8, .rx false⟩))
  let r := andThen r fun c =>
    if env.sysObj2 then c.onNode (define env · 3 ⟨0x002, acceptMask nrs, 8, .rx false⟩) else (c, E.ok)
  andThen r fun c => setSilentAwake env c tp (c.s.node.silent tp)

/-- Body of the loop io_can_config.c:2263-2287: a transmit object of the main CPU is received. -/
def setTx1 (env : Env) (tp nr i : Nat) (c : Cpu2) : Cpu2 × Err :=
  let n := c.s.node.setRow tp fun r => { r with txDlcSync := upd r.txDlcSync i (r.txDlc i) }
  match n.nextFree env with
  | none => (c.setNode n, E.noMsgObjFree)
  | some o =>
    let r := thenOk (define env n o ⟨syncTxId nr i, 0x7FF#16, (n.rows tp).txDlc i, .rx true⟩) fun n =>
      addSlot env n o tp
    ((c.setX tp fun x => { x with obj := upd x.obj i o }).setNode r.1, r.2)

/-- io_can_config.c:2259-2289: the transmit objects of a new module. -/
def setTx (env : Env) (tp nr : Nat) (c : Cpu2) : Cpu2 × Err :=
  loop (setTx1 env tp nr) (List.range (c.s.node.rows tp).txObj) c

/-- `can_config_set_module`, io_can_config.c:2173-2398. -/
def setModule (env : Env) (c : Cpu2) (tp : Nat) (tpl : Row) (tx2 : Cpu2Row) (nr : Nat) (rx tx : Nat → Nat) :
    Cpu2 × Err :=
  let nr := effNr tp nr
  let c := (c.setX tp fun _ => tx2).setNode (c.s.node.fillRow tp tpl nr rx tx)
  andThen (c.setTx env tp nr) fun c =>
  andThen (c.onNode (setRx env · tp nr)) fun c =>
    let r := c.finish env tp c.s.node.nrMod nr ((List.range (tp + 1)).map fun i => (c.s.node.rows i).nr)
    (r.1.setNode { r.1.s.node with nrMod := r.1.s.node.nrMod + 1 }, r.2)

/-- `can_config_add_module`, io_can_config.c:960-1027. -/
def addModule (env : Env) (c : Cpu2) (tpl : Row) (tx2 : Cpu2Row) (nr : Nat) (rx tx : Nat → Nat) : Cpu2 × Err :=
  match (List.range env.maxMod).find? fun i => (c.s.node.rows i).typ = [] with
  | none => (c, E.maxModules)
  | some i =>
    if (List.range i).any fun j => (c.s.node.rows j).nr = nr then
      let r := c.setModule env i tpl tx2 (125 + i) rx tx
      (r.1.setNode (report env r.1.s.node r.2), E.redeclaredNr)
    else
      let r := c.setModule env i tpl tx2 nr rx tx
      (r.1.setNode (report env r.1.s.node r.2), E.ok)

/-- Body of the loop io_can_config.c:1836-1846. -/
def renumTx1 (env : Env) (tp nr i : Nat) (c : Cpu2) : Cpu2 × Err :=
  c.onNode fun n => define env n ((c.x tp).obj i) ⟨syncTxId nr i, 0x7FF#16, (n.rows tp).txDlc i, .rx true⟩

/-- io_can_config.c:1832-1848: the transmit objects after a number change. -/
def renumTx (env : Env) (tp nr : Nat) (c : Cpu2) : Cpu2 × Err :=
  loop (renumTx1 env tp nr) (List.range (c.s.node.rows tp).txObj) c

/-- `li_can_slv_config_change_module_nr_and_identifiers`, io_can_config.c:1781-1926. -/
def changeNr (env : Env) (c : Cpu2) (typ : List Byte) (nr act : Nat) : Cpu2 × Err :=
  match c.s.node.findTypeNr env typ act with
  | none => (c.setNode { c.s.node with ub := true }, E.ok)
  | some tp =>
    let c := c.setNode (c.s.node.setRow tp fun r => { r with nr := nr })
    andThen (c.renumTx env tp nr) fun c =>
    andThen (c.onNode (renumRx env · tp nr)) fun c =>
      c.finish env tp tp nr ((List.range c.s.node.nrMod).map fun i => (c.s.node.rows i).nr)

/-- `can_config_change_module_nr`, io_can_config.c:1402-1448. -/
def changeModuleNr (env : Env) (c : Cpu2) (tp nr : Nat) : Cpu2 × Err :=
  let r := c.s.node.rows tp
  match env.voter with
  | none => c.changeNr env r.typ nr r.nr
  | some v => match v r.typ nr r.nr with
    | .valid => andThen (c.changeNr env r.typ nr r.nr) fun c => c.setSilentAwake env tp 1
    | .validButSilent => andThen (c.changeNr env r.typ nr r.nr) fun c => c.setSilentAwake env tp 0
    | _ => (c, E.changingToInvalidNr)

/-- `li_can_slv_config_set_module_silent_awake_from_type_and_nr`, io_can_config.c:1958-1975. -/
def setSilentAwakeBy (env : Env) (c : Cpu2) (typ : List Byte) (nr st : Nat) : Cpu2 × Err :=
  match c.s.node.findTypeNr env typ nr with
  | some tp => c.setSilentAwake env tp st
  | none => (c, E.moduleNotFound)

/-- `can_config_set_active`, io_can_config.c:1083-1139. -/
def setActive (env : Env) (c : Cpu2) (typ : List Byte) : Cpu2 × Err :=
  match c.s.node.findType env typ with
  | some tp => (c.syncOn tp, E.ok)
  | none => (c, E.typeNotFound)

/-- `can_config_set_critical`, io_can_config.c:1145-1201. -/
def setCritical (env : Env) (c : Cpu2) (typ : List Byte) : Cpu2 × Err :=
  match c.s.node.findType env typ with
  | some tp => (c.syncOff env tp, E.ok)
  | none => (c, E.typeNotFound)

/-! ## Received data -/

/-- Module number of a synchronous frame on this CPU, io_can_sync.c:514: `((can_id & ~0x600) >> 2) + 1`. -/
def nrOfId (id : Nat) : Nat := (BitVec.ofNat 16 id &&& ~~~ 0x600#16).toNat / 4 + 1

/-- `(can_id & CAN_CONFIG_DATA_RX_MASK) == CAN_CONFIG_DATA_RX_MASK`, io_can_sync.c:544. -/
def fromMaster (id : Nat) : Bool := BitVec.ofNat 16 id &&& 0x200#16 == 0x200#16

/-- `can_sync_rx_data_main`, io_can_sync.c:490-584.  Frames of the main CPU are checked against the length of the
receive object with the same index (524). -/
def rxData (env : Env) (c : Cpu2) (tp id dlc : Nat) (data : List Byte) : Cpu2 × Err :=
  let obj := syncObjOfId id
  let row := c.s.node.rows tp
  if env.chk ∧ nrOfId id ≠ row.nr then (c, E.rxWrongNr)                      -- 520
  else if env.chk ∧ dlc ≠ row.rxDlcSync obj then (c, E.rxWrongDlc)           -- 524
  else if fromMaster id then
    let r := c.s.node.callRx env (row.rxMainSync obj) data (row.rx obj) dlc    -- 551
    ({ c with s := { c.s with node := r.1, sync := { c.s.sync with
        cnt := upd c.s.sync.cnt tp (upd (c.s.sync.cnt tp) obj (u16 (c.s.sync.cnt tp obj + 1))) } } }, r.2)
  else
    let r := c.s.node.callRx env ((c.x tp).convSync obj) data (row.tx obj) dlc  -- 562
    (c.setNode r.1, r.2)

/-- io_can_sync_handler.c:198-205 and io_can_sys.c:319-323: an entry of the error queue is taken out;
`can_sys_send_error_full` does nothing on this CPU (io_can_sys.c:507). -/
def dropOneError (env : Env) (n : Node) : Node × Err :=
  let r := n.errq.getFull env.qSize
  ({ n with errq := r.1 }, r.2.1)

/-- The loop io_can_sys.c:317-324, at most `k` iterations; `none` if still running. -/
def drain (env : Env) : Nat → Node × Err → Option (Node × Err)
  | k, r =>
    if r.1.errq.getCount = 0 then some r
    else match k with
      | 0 => none
      | k + 1 => drain env k (dropOneError env r.1)

/-- A process request, io_can_sync_handler.c:174-210: nothing is sent. -/
def processRequest (env : Env) (c : Cpu2) (now dlc : Nat) : Cpu2 :=
  let s := Slave.rxProcessMain env (Slave.checkImage env (Slave.reqRx c.s) now) now dlc
  if env.sysErr ∧ 0 < s.node.errq.getCount then
    { c with s := { s with node := (dropOneError env s.node).1 } }
  else { c with s := s }

/-! ## System messages -/

/-- `can_sys_set_silent_awake`, io_can_sys.c:806-848. -/
def sysSilentAwake (env : Env) (c : Cpu2) (src : List Byte) (nr st : Nat) : Cpu2 × Err :=
  if env.serial = serialOf src then
    match c.s.node.findNr env nr with
    | some tp =>
      if (c.s.node.rows tp).typ.take 4 = typeOf src then c.setSilentAwake env tp st else (c, E.ok)
    | none => (c, E.ok)
  else (c, E.ok)

/-- STATUS REQUEST, io_can_sys.c:266-312: `can_sys_status_ackn` returns OK at once (io_can_sys.c:619-623). -/
def statusRequest (env : Env) (s : Slave) : Slave :=
  let s := if s.sys.first then s
    else { s with sys := { s.sys with first := true } }.callOpt s.sys.firstCb
  if env.randAck then
    let r := rand s.sys.rand
    { s with sys := { s.sys with rand := r.1 }, node := { s.node with log := .wait r.2 :: s.node.log } }
  else s

/-- `can_sys_msg_rx`, io_can_sys.c:181-494, as `Slave.sysMsg`; the version request is not answered either
(io_can_sys.c:724-728). -/
def sysMsg (env : Env) (c : Cpu2) (nr dlc : Nat) (src : List Byte) : Option (Cpu2 × Err) :=
  if dlc ≠ 8 then some (c, E.invalidSysDlc)
  else
    let s := c.s
    let dst : Option Nat := if nr = 1 then none else s.node.findNr env nr
    if nr ≠ 1 ∧ dst = none then some (c, E.ok)
    else if nr = 1 ∧ s.node.nrMod = 0 then some (c, E.moduleNotFound)
    else
      match at8 src 0 with
      | 0x01 =>
        let s := statusRequest env s
        if env.sysErr then
          (drain env s.node.errq.count (s.node, E.ok)).map fun x => ({ c with s := { s with node := x.1 } }, x.2)
        else some ({ c with s := s }, E.ok)
      | 0x02 =>
        if nr ≠ 1 then some (c, E.notAllowedDirect)
        else
          let r := changeBaud env s.link (at8 src 1 * 256 + at8 src 2)
          some ({ c with s := { s with link := r.1 } }, r.2)
      | 0x03 => some (c, E.notImplemented)
      | 0x05 => some (c, E.ok)
      | 0x07 =>
        match s.sys.timeCb with
        | some f =>
          let t := at8 src 2 * 16777216 + at8 src 3 * 65536 + at8 src 4 * 256 + at8 src 5
          let z : Int := if at8 src 6 < 128 then (at8 src 6 : Int) else (at8 src 6 : Int) - 256
          some (c.setNode { s.node with log := .timeCb f t z (at8 src 7 != 0) :: s.node.log }, E.ok)
        | none => some (c, E.ok)
      | 0x08 => some ({ c with s := (setCycle env s (at8 src 2)).1 }, (setCycle env s (at8 src 2)).2)
      | 0x0A => some (c, E.notImplemented)
      | 0x0B => some (c, E.notImplemented)
      | 0x20 =>
        match dst with
        | none => some (c, E.notAllowedBroadcast)
        | some tp => if env.serial = serialOf src then some (c.changeModuleNr env tp (at8 src 2)) else some (c, E.ok)
      | 0x21 => if nr = 1 then some (c, E.notAllowedBroadcast) else some (c.sysSilentAwake env src nr 0)
      | 0x22 => if nr = 1 then some (c, E.notAllowedBroadcast) else some (c.sysSilentAwake env src nr 1)
      | 0x23 => some (c, E.notImplemented)
      | 0x30 =>
        match s.sys.resetCb with
        | some f => some (c.setNode { s.node with log := .resetCb f (src.getD 1 0) :: s.node.log }, E.ok)
        | none => some (c, E.ok)
      | 0x31 =>
        match dst with
        | none => some (c, E.notAllowedBroadcast)
        | some tp =>
          if env.serial = serialOf src then some (c.setNode (s.node.changeType env tp (typeOf src)).1, E.ok)
          else some (c, E.ok)
      | _ => some (c, E.sysUnknownCommand)

/-- `can_sync_handler_rx`, io_can_sync_handler.c:102-288, without the tunnel call at its end. -/
def handlerRx (env : Env) (c : Cpu2) (now obj dlc id : Nat) (data : List Byte) : Option Cpu2 :=
  let c :=
    if Node.bit obj &&& c.s.node.hw.isrRx ≠ 0 then
      match c.s.node.slotRow obj with
      | some tp => (c.rxData env tp id dlc data).1
      | none => c
    else c
  let c := if obj = 0 then c.processRequest env now dlc else c
  if obj = 2 ∨ (obj = 3 ∧ env.sysObj2 = true) then
    (c.sysMsg env (sysNrOfId id) dlc data).map fun r => r.1.setNode (r.1.s.node.report env r.2)
  else some c

/-! ## Node mode -/

/-- `can_main_hw_handler_error`, io_can_main_hw_handler.c:182-272 with `LI_CAN_SLV_RECONNECT`: after any error the
node is stopped and put into listen only (249-250). -/
def hwError (env : Env) (l : Link) (bus : Stack.BusState) (lec : Lec) : Link :=
  if env.recon ∧ (bus ≠ .active ∨ lec ≠ .none) then
    (Slave.setMode env (Slave.setMode env l .stopped).1 .listen).1
  else l

/-- `lcsa_start`, li_can_slv_api.c:206-226. -/
def start (env : Env) (l : Link) : Link × Err :=
  let l := (Slave.setMode env l .stopped).1
  let r := Slave.setBaud l l.startup
  if r.2 = E.ok then Slave.setMode env r.1 .operational else r

/-- What can happen to the monitor CPU. -/
inductive CIn
  /-- a frame received, or a function of the slave called.  `Op.add` registers a template whose additional members
  are `NULL`; `Op.process` (transmission of the process data, never called on this CPU) does nothing. -/
  | api (i : In)
  /-- `lcsa_add_module` -/
  | add (tpl : Row) (tx2 : Cpu2Row) (nr : Nat) (rx tx : Nat → Nat)
  /-- `lcsa_process`, with the bus state and last error the driver reports, io_can.c:291-328 -/
  | process (now : Nat) (bus : Stack.BusState) (lec : Lec)
  /-- `lcsa_start` -/
  | start

/-- Calls acting on the module table. -/
def table (env : Env) (c : Cpu2) : Op → Cpu2 × Err
  | .add tpl nr rx tx => c.addModule env tpl {} nr rx tx
  | .silentAwake tp st => c.setSilentAwake env tp st
  | .silentAwakeBy typ nr st => c.setSilentAwakeBy env typ nr st
  | .setActive typ => c.setActive env typ
  | .setCritical typ => c.setCritical env typ
  | .process => (c, E.ok)
  | .changeNr typ nr act => c.changeNr env typ nr act
  | .changeModuleNr tp nr => c.changeModuleNr env tp nr
  | .changeTypeAdd typ tpl rx tx cb => c.onNode (changeTypeAdd env · typ tpl rx tx cb)
  | .changeType tp typ => c.onNode (changeType env · tp typ)

/-- One input; the functions not listed are the same on both CPUs. -/
def step (env : Env) (c : Cpu2) : CIn → Option Cpu2
  | .api (.frame now obj dlc id data) => c.handlerRx env now obj dlc id data
  | .api (.table o) => some (c.table env o).1
  | .api i => (c.s.step env i).map fun s => { c with s := s }
  | .add tpl tx2 nr rx tx => some (c.addModule env tpl tx2 nr rx tx).1
  | .process now bus lec =>
    let s := Slave.trigger env c.s now
    some { c with s := { s with link := hwError env s.link bus lec } }
  | .start => some { c with s := { c.s with link := (start env c.s.link).1 } }

/-- A history. -/
def run (env : Env) : Cpu2 → List CIn → Option Cpu2
  | c, [] => some c
  | c, i :: is => (step env c i).bind fun c' => run env c' is

/-- Static initialisers. -/
def boot (mem : Nat → List Byte) : Cpu2 := { s := Slave.boot mem }

end Cpu2
end LiCan
