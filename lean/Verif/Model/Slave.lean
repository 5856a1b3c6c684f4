import Verif.Model.NodeRun
/-!
# The slave: module table, synchronous process image, node mode and system messages

Static variables of source/sync/io_can_sync.c, source/sys/io_can_sys.c, the baud rate part of
source/config/io_can_config.c, the node mode of source/core/io_can.c and the driver calls of
source/arch/canpie_adapter/io_can_main_hw.c, for the same configuration as `Verif.Model.Node` with `OUTER_APP`,
`LI_CAN_SLV_SYS_CHANGE_MODULE_NR`, `LI_CAN_SLV_SYS_CHANGE_MODULE_TYPE` and
`LI_CAN_SLV_SYS_FACTORY_RESET_CBK`.

Simplifications
* Function pointers are numbers (`none` = `NULL`); a call of the application is recorded in
  `node.log`; it does not call back into the stack.
* `can_port_get_system_ticks()` is an argument `now`; time does not advance during one call.
-/
namespace LiCan

/-- `can_sync` (include/li_can_slv/sync/io_can_sync.h:95-120) and the static callback tables,
io_can_sync.c:77-88. -/
structure SyncVars where
  /-- `main_rx_cnt[row][obj]` (`uint16_t`) -/
  cnt       : Nat → Nat → Nat := fun _ _ => 0
  /-- `main_pr_cnt` -/
  prCnt     : Nat := 0
  /-- `main_pr_dlc` -/
  prDlc     : Nat := 0
  /-- `main_pr_flag` -/
  prFlag    : Nat := 0
  /-- `main_pr_timestamp` -/
  stamp     : Nat := 0
  /-- `pr_periode` -/
  periode   : Nat := 0
  /-- `pr_cycle_time` -/
  cycle     : Nat := 0
  /-- `pr_time_valid` -/
  timeValid : Nat := 0
  /-- `pr_time_valid_module[]` -/
  modTime   : Nat → Nat := fun _ => 0
  /-- `image_valid[]` -/
  valid     : Nat → Bool := fun _ => false
  /-- `err.main_pr_cnt` (`uint16_t`) -/
  errPr     : Nat := 0
  /-- `err.main_rx_cnt[]` (`uint16_t`) -/
  errRx     : Nat → Nat := fun _ => 0
  /-- `can_sync_process_call` -/
  allCb     : Option Nat := none
  /-- `can_sync_process_image_valid_cbk_table` -/
  validCb   : Nat → Option Nat := fun _ => none
  /-- `can_sync_process_image_not_valid_cbk_table` -/
  invalidCb : Nat → Option Nat := fun _ => none
  /-- `can_sync_process_request_rx_cbk_table` -/
  reqCb     : Nat → Option Nat := fun _ => none
  /-- `can_sync_first_process_detect` -/
  first     : Bool := false
  /-- `can_sync_first_process_request_call` -/
  firstCb   : Option Nat := none

/-- `li_can_slv_node_mode_t`, io_can_types.h:125-128. -/
inductive Mode
  | init | stopped | operational | listen
deriving DecidableEq, Repr

/-- What the CAN driver was last told by `CpCoreCanMode` (successful calls only). -/
inductive DrvMode
  | stop | start | listen
deriving DecidableEq, Repr

/-- Node mode and bit rate. -/
structure Link where
  /-- `li_can_slv_mode`, io_can.c:71 -/
  mode    : Mode := .init
  /-- `can_config_bdr_current.baudrate`, io_can_config.c:581 -/
  cur     : Nat := 0
  /-- `can_config_bdr_startup` -/
  startup : Nat := 0
  /-- rate of the last `CpCoreBitrate` call (0: none) -/
  hwRate  : Nat := 0
  /-- state of the driver -/
  drv     : DrvMode := .stop
  /-- number of `CpCoreCanMode` calls so far -/
  modeN   : Nat := 0
  /-- baud rate stored by `li_can_slv_xload_info_set_can_baudrate` -/
  stored  : Nat := 0
  /-- number of calls of that function -/
  storedN : Nat := 0
deriving DecidableEq, Repr

/-- Static variables of io_can_sys.c:96-107. -/
structure SysVars where
  /-- `can_sys_first_status_detect` -/
  first   : Bool := false
  /-- `li_can_slv_sys_first_status_request_cbk` -/
  firstCb : Option Nat := none
  /-- `li_can_slv_sys_system_time_cbk` -/
  timeCb  : Option Nat := none
  /-- `li_can_slv_factory_reset_cbk` -/
  resetCb : Option Nat := none
  /-- `li_can_slv_rand_value` -/
  rand    : Nat := 0

/-- The modelled state. -/
structure Slave where
  node : Node
  sync : SyncVars := {}
  link : Link := {}
  sys  : SysVars := {}

namespace Slave

/-- call of an application function through a pointer that may be `NULL` -/
def callOpt (s : Slave) (f : Option Nat) : Slave :=
  match f with
  | none => s
  | some k => { s with node := { s.node with log := .call k :: s.node.log } }

/-- `uint32_t` subtraction of tick values -/
def sub32 (a b : Nat) : Nat := (((a : Int) - b) % 4294967296).toNat

/-! ## Node mode and baud rate -/

/-- `CpCoreCanMode` as used by io_can_main_hw.c:173-209. -/
def drvMode (env : Env) (l : Link) (m : DrvMode) : Link × Err :=
  if env.modeOk l.modeN then ({ l with drv := m, modeN := l.modeN + 1 }, E.ok)
  else ({ l with modeN := l.modeN + 1 }, E.notImplemented)

/-- `li_can_slv_set_node_mode`, io_can.c:330-341, with `can_main_enable`, io_can_main.c:546-569:
the mode is stored before the driver is asked. -/
def setMode (env : Env) (l : Link) (m : Mode) : Link × Err :=
  let l := { l with mode := m }
  if m = .operational then drvMode env l .start
  else if env.recon ∧ m = .listen then drvMode env l .listen
  else drvMode env l .stop

/-- `can_config_bdr_tab` after `can_config_set_baudrate_table`, io_can_config.c:810,
io_can_main_hw.c:70-76 with `CAN_CONFIG_DEF_BDR` 250. -/
def bdrTab : List Nat := [250, 125, 500, 1000]

/-- `can_main_hw_set_baudrate`, io_can_main_hw.c:296-332. -/
def hwSetBaud (l : Link) (b : Nat) : Link × Err :=
  if l.mode = .init ∨ l.mode = .stopped then
    if b = 125 ∨ b = 250 ∨ b = 500 ∨ b = 1000 then ({ l with hwRate := b }, E.ok)
    else (l, E.invalidBaudrate)
  else (l, E.invalidBaudrate)

/-- Body of the loop io_can_config.c:823-842. -/
def setBaud1 (b : Nat) (r : Link × Err) (t : Nat) : Link × Err :=
  if b = t then
    let h := hwSetBaud { r.1 with cur := t } t
    if h.2 = E.ok then ({ h.1 with stored := b, storedN := h.1.storedN + 1 }, h.2) else h
  else r

/-- `can_config_set_baudrate` (`lcsa_set_baudrate`), io_can_config.c:819-844. -/
def setBaud (l : Link) (b : Nat) : Link × Err :=
  bdrTab.foldl (setBaud1 b) (l, E.ok)

/-- `can_config_is_baudrate_valid`, io_can_config.c:872-884. -/
def baudValid (b : Nat) : Bool := bdrTab.any (b == ·)

/-! ## Synchronous data and the process image -/

/-- `can_sync_init`, io_can_sync.c:405-448. -/
def syncInit (env : Env) (v : SyncVars) : SyncVars :=
  { v with
    periode := env.perMax, cycle := env.perMax
    validCb := fun i => if i < env.maxMod then none else v.validCb i
    invalidCb := fun i => if i < env.maxMod then none else v.invalidCb i
    reqCb := fun i => if i < env.maxMod then none else v.reqCb i }

/-- `can_sync_rx_data_main`, io_can_sync.c:490-584. -/
def rxData (env : Env) (s : Slave) (tp id dlc : Nat) (data : List Byte) : Slave × Err :=
  let obj := syncObjOfId id
  let row := s.node.rows tp
  if env.chk ∧ syncNrOfId id ≠ row.nr then (s, E.rxWrongNr)                  -- 520
  else if env.chk ∧ dlc ≠ row.rxDlcSync obj then (s, E.rxWrongDlc)           -- 524
  else
    let r := s.node.callRx env (row.rxMainSync obj) data (row.rx obj) dlc    -- 580
    ({ s with node := r.1, sync := { s.sync with
        cnt := upd s.sync.cnt tp (upd (s.sync.cnt tp) obj (u16 (s.sync.cnt tp obj + 1))) } }, r.2)

/-- `li_can_slv_sync_process_request_rx`, io_can_sync.c:1284-1304. -/
def reqRx (s : Slave) : Slave :=
  let s := if s.sync.first then s
    else { s with sync := { s.sync with first := true } }.callOpt s.sync.firstCb
  (List.range s.node.nrMod).foldl (fun s i => s.callOpt (s.sync.reqCb i)) s

/-- `li_can_slv_sync_check_process_image_module`, io_can_sync.c:1348-1391. -/
def checkModule (s : Slave) (now tp : Nat) : Slave × Err :=
  if (List.range (s.node.rows tp).rxObjSync).all fun i => s.sync.cnt tp i == 1 then
    ({ s with sync := { s.sync with modTime := upd s.sync.modTime tp now } }, E.ok)
  else
    ({ s with sync := { s.sync with errRx := upd s.sync.errRx tp (u16 (s.sync.errRx tp + 1)) } }, E.nrOfRxData)

/-- Body of the loop io_can_sync.c:1010-1035 on (state, `process_image_valid`). -/
def checkStep (now : Nat) (r : Slave × Bool) (i : Nat) : Slave × Bool :=
  let c := checkModule r.1 now i
  if c.2 ≠ E.ok then
    (({ c.1 with sync := { c.1.sync with valid := upd c.1.sync.valid i false } }.callOpt
      (c.1.sync.invalidCb i)), false)
  else
    (({ c.1 with sync := { c.1.sync with valid := upd c.1.sync.valid i true } }.callOpt
      (c.1.sync.validCb i)), r.2)

/-- `li_can_slv_sync_clear_process_image`, io_can_sync.c:1312-1340. -/
def clearImage (env : Env) (s : Slave) : Slave :=
  { s with sync := { s.sync with
      prCnt := 0, prFlag := 0
      cnt := fun i j => if i < env.maxMod ∧ j < (s.node.rows i).rxObjSync then 0 else s.sync.cnt i j } }

/-- `li_can_slv_sync_check_process_image`, io_can_sync.c:959-1060. -/
def checkImage (env : Env) (s : Slave) (now : Nat) : Slave :=
  if s.sync.prFlag = 0xFFFF then
    if 1 < s.sync.prDlc then clearImage env s                                      -- 978
    else if s.sync.prCnt ≠ 1 then
      clearImage env { s with sync := { s.sync with errPr := u16 (s.sync.errPr + 1) } }   -- 990
    else
      let r := (List.range s.node.nrMod).foldl (checkStep now) (s, true)
      if r.2 then
        clearImage env ({ r.1 with sync := { r.1.sync with timeValid := now } }.callOpt r.1.sync.allCb)
      else clearImage env r.1
  else s

/-- `can_sync_rx_process_main`, io_can_sync.c:459-475. -/
def rxProcessMain (env : Env) (s : Slave) (now dlc : Nat) : Slave :=
  { s with sync := { s.sync with
      periode := env.t2ms (sub32 now s.sync.stamp), stamp := now
      prCnt := u16 (s.sync.prCnt + 1), prDlc := dlc, prFlag := 0xFFFF } }

/-- `li_can_slv_sync_get_process_periode`, io_can_sync.c:1072-1080 (the clamped value is stored). -/
def getPeriode (env : Env) (s : Slave) : Slave × Nat :=
  let v := if env.perMax < s.sync.periode then { s.sync with periode := env.perMax } else s.sync
  ({ s with sync := v }, v.periode)

/-- `li_can_slv_sync_set_process_time_valid_fnc`, io_can_sync.c:1088-1152: the row whose function
`can_sync_get_pr_time_valid_module1` .. `8` is handed out (`none`: the pointer is not written). -/
def timeFnc (env : Env) (s : Slave) (typ : List Byte) : Option Nat × Err :=
  match s.node.findType env typ with
  | some tp => (if tp < env.maxMod ∧ tp < 8 then some tp else none, E.ok)
  | none => (none, E.typeNotFound)

/-- `can_sync_get_pr_time_valid_module1` .. `8`, io_can_sync.c:1393-1479. -/
def validTime (s : Slave) (tp : Nat) : Nat := s.sync.modTime tp

/-- `li_can_slv_sync_set_process_cycle_time`, io_can_sync.c:1233-1247. -/
def setCycle (env : Env) (s : Slave) (t : Nat) : Slave × Err :=
  if t ≤ env.perMax then ({ s with sync := { s.sync with cycle := t } }, E.ok)
  else ({ s with sync := { s.sync with cycle := env.perMax } }, E.configInvalid)

/-- `li_can_slv_sync_trigger_process_periode`, io_can_sync.c:1250-1269 (`periode_max_ticks` is a
`uint16_t`). -/
def trigger (env : Env) (s : Slave) (now : Nat) : Slave :=
  let maxT := u16 (env.ms2t env.perMax)
  let d := sub32 now s.sync.stamp
  let d := env.t2ms (if maxT < d then maxT else d)
  if s.sync.periode < d then { s with sync := { s.sync with periode := d } } else s

/-! ## System messages: what is sent -/

/-- byte `k` of `x` (`(byte_t)(x >> 8k)`) -/
def byteOf (x k : Nat) : Byte := UInt8.ofNat (x / 256 ^ k)

/-- `can_port_string_n_cpy(&data[1], type, 4)`: four characters, padded with NUL -/
def type4 (typ : List Byte) : List Byte := (typ ++ [0, 0, 0, 0]).take 4

/-- `can_sys_status_ackn_send`, io_can_sys.c:649-660. -/
def statusBytes (typ : List Byte) (serial : Nat) : List Byte :=
  [0x04] ++ type4 typ ++ [byteOf serial 2, byteOf serial 1, byteOf serial 0]

/-- `can_sys_version_ackn_send_version1`, io_can_sys.c:755-773. -/
def version1Bytes (bMaj bMin sMaj sMin : Nat) : List Byte :=
  [0x05, byteOf bMaj 0, byteOf bMin 1, byteOf bMin 0, 0x00, byteOf sMaj 0, byteOf sMin 1, byteOf sMin 0]

/-- `can_sys_version_ackn_send_version2`, io_can_sys.c:775-798. -/
def version2Bytes (ident change : Nat) : List Byte :=
  [0x06, byteOf ident 3, byteOf ident 2, byteOf ident 1, byteOf ident 0,
   byteOf change 2, byteOf change 1, byteOf change 0]

/-- `can_sys_send_error_full`, io_can_sys.c:511-522. -/
def errorBytes (e : ErrEntry) : List Byte :=
  [0x03, byteOf e.msgCode.toNat 3, byteOf e.msgCode.toNat 2, byteOf e.msgCode.toNat 1,
   byteOf e.msgCode.toNat 0, byteOf e.addInfo.toNat 0, byteOf e.prio 0, byteOf e.group.toNat 0]

/-- `can_sys_send_error_full`, io_can_sys.c:497-533: numbers outside 2..124 are replaced by the
number of row 0. -/
def sendError (env : Env) (n : Node) (e : ErrEntry) : Node × Err :=
  let nr := if 124 < e.moduleNr ∨ e.moduleNr < 2 then (n.rows 0).nr else e.moduleNr
  n.sendSys env nr (errorBytes e)

/-- One entry of the error queue is taken out and sent: io_can_sync_handler.c:198-205 and the body
of the loop io_can_sys.c:319-323. -/
def sendOneError (env : Env) (n : Node) : Node × Err :=
  match n.errq.getFull env.qSize with
  | (q, e, some x) =>
    if e = E.ok then sendError env { n with errq := q } x else ({ n with errq := q }, e)
  | (q, e, none) => ({ n with errq := q }, e)

/-- The loop io_can_sys.c:317-324, at most `k` iterations; `none` if still running. -/
def drain (env : Env) : Nat → Node × Err → Option (Node × Err)
  | k, r =>
    if r.1.errq.getCount = 0 then some r
    else match k with
      | 0 => none
      | k + 1 => drain env k (sendOneError env r.1)

/-- `can_sys_status_ackn`, io_can_sys.c:605-646. -/
def statusAckn (env : Env) (s : Slave) (tp : Nat) : Slave × Err :=
  if s.link.mode = .listen then (s, E.ok)
  else if env.maxMod ≤ tp then (s, E.wrongTablePos)
  else
    let r := s.node.sendSys env (s.node.rows tp).nr (statusBytes (s.node.rows tp).typ env.serial)
    ({ s with node := r.1 }, r.2)

/-- `can_sys_version_ackn`, io_can_sys.c:708-752. -/
def versionAckn (env : Env) (s : Slave) (tp : Nat) : Slave × Err :=
  if s.link.mode = .listen then (s, E.ok)
  else if env.maxMod ≤ tp then (s, E.wrongTablePos)
  else
    let nr := (s.node.rows tp).nr
    let r := s.node.sendSys env nr (version1Bytes (u8 env.boot.1) (u16 env.boot.2) (u8 env.soft.1) (u16 env.soft.2))
    if r.2 ≠ E.ok then ({ s with node := r.1 }, r.2)
    else
      let r := r.1.sendSys env nr (version2Bytes (u32 env.ident.1) (u32 env.ident.2))
      ({ s with node := r.1 }, r.2)

/-- Loops over the rows that stop at the first error, io_can_sys.c:300-307, 376-383. -/
def forRows (f : Slave → Nat → Slave × Err) : List Nat → Slave → Slave × Err
  | [], s => (s, E.ok)
  | i :: is, s =>
    let r := f s i
    if r.2 ≠ E.ok then r else forRows f is r.1

/-- `li_can_slv_rand`, io_can_sys.c:875-879: new generator state and result. -/
def rand (v : Nat) : Nat × Nat :=
  let v := u32 (v * 1103515245 + 12345)
  (v, u32 (v * 65536) % 104)

/-- `src[i]` of the eight byte message buffer -/
def at8 (src : List Byte) (i : Nat) : Nat := (src.getD i 0).toNat

/-- The serial number in bytes 5..7, io_can_sys.c:818 and 862. -/
def serialOf (src : List Byte) : Nat := at8 src 5 * 65536 + at8 src 6 * 256 + at8 src 7

/-- bytes 1..4 as a C string of at most four characters (for `strncmp(.., 4)`) -/
def typeOf (src : List Byte) : List Byte := ((src.drop 1).take 4).takeWhile (· ≠ 0)

/-- `can_sys_set_silent_awake`, io_can_sys.c:806-848. -/
def sysSilentAwake (env : Env) (s : Slave) (src : List Byte) (nr st : Nat) : Slave × Err :=
  if env.serial = serialOf src then
    match s.node.findNr env nr with
    | some tp =>
      if (s.node.rows tp).typ.take 4 = typeOf src then
        let r := s.node.setSilentAwake env tp st
        ({ s with node := r.1 }, r.2)
      else (s, E.ok)
    | none => (s, E.ok)
  else (s, E.ok)

/-- STATUS REQUEST up to the acknowledge, io_can_sys.c:266-312; `dst`: `none` = broadcast. -/
def statusRequest (env : Env) (s : Slave) (dst : Option Nat) : Slave × Err :=
  let s := if s.sys.first then s
    else { s with sys := { s.sys with first := true } }.callOpt s.sys.firstCb
  let s := if env.randAck then
      let r := rand s.sys.rand
      { s with sys := { s.sys with rand := r.1 }, node := { s.node with log := .wait r.2 :: s.node.log } }
    else s
  match dst with
  | none => forRows (statusAckn env) (List.range s.node.nrMod) s
  | some tp => statusAckn env s tp

/-- CHANGE CAN BAUDRATE, io_can_sys.c:329-361. -/
def changeBaud (env : Env) (l : Link) (b : Nat) : Link × Err :=
  let mode := l.mode
  let r := setMode env l .stopped
  let r := if r.2 = E.ok then setBaud r.1 b else r
  if r.2 = E.ok then setMode env r.1 mode else r

/-- `can_sys_msg_rx`, io_can_sys.c:181-494, with `LI_CAN_SLV_SYS_CHANGE_MODULE_NR`,
`LI_CAN_SLV_SYS_CHANGE_MODULE_TYPE` and `LI_CAN_SLV_SYS_FACTORY_RESET_CBK`.  `none`: the loop of the
status request does not end (never happens, see C27). -/
def sysMsg (env : Env) (s : Slave) (nr dlc : Nat) (src : List Byte) : Option (Slave × Err) :=
  if dlc ≠ 8 then some (s, E.invalidSysDlc)                                            -- 217
  else
    let dst : Option Nat := if nr = 1 then none else s.node.findNr env nr
    if nr ≠ 1 ∧ dst = none then some (s, E.ok)                                         -- 243
    else if nr = 1 ∧ s.node.nrMod = 0 then some (s, E.moduleNotFound)                  -- 257
    else
      match at8 src 0 with
      | 0x01 =>
        let r := statusRequest env s dst
        if dst = none ∧ r.2 ≠ E.ok then some r                                         -- 303
        else if env.sysErr then
          (drain env r.1.node.errq.count (r.1.node, r.2)).map fun x => ({ r.1 with node := x.1 }, x.2)
        else some r
      | 0x02 =>
        if nr ≠ 1 then some (s, E.notAllowedDirect)
        else
          let r := changeBaud env s.link (at8 src 1 * 256 + at8 src 2)
          some ({ s with link := r.1 }, r.2)
      | 0x03 => some (s, E.notImplemented)
      | 0x05 =>
        match dst with
        | none => some (forRows (versionAckn env) (List.range s.node.nrMod) s)
        | some tp => some (versionAckn env s tp)
      | 0x07 =>
        match s.sys.timeCb with
        | some f =>
          let t := at8 src 2 * 16777216 + at8 src 3 * 65536 + at8 src 4 * 256 + at8 src 5
          let z : Int := if at8 src 6 < 128 then (at8 src 6 : Int) else (at8 src 6 : Int) - 256
          some ({ s with node := { s.node with log := .timeCb f t z (at8 src 7 != 0) :: s.node.log } }, E.ok)
        | none => some (s, E.ok)
      | 0x08 => some (setCycle env s (at8 src 2))
      | 0x0A => some (s, E.notImplemented)
      | 0x0B => some (s, E.notImplemented)
      | 0x20 =>
        match dst with
        | none => some (s, E.notAllowedBroadcast)
        | some tp =>
          if env.serial = serialOf src then
            let r := s.node.changeModuleNr env tp (at8 src 2)
            some ({ s with node := r.1 }, r.2)
          else some (s, E.ok)
      | 0x21 => if nr = 1 then some (s, E.notAllowedBroadcast) else some (sysSilentAwake env s src nr 0)
      | 0x22 => if nr = 1 then some (s, E.notAllowedBroadcast) else some (sysSilentAwake env s src nr 1)
      | 0x23 => some (s, E.notImplemented)
      | 0x30 =>
        match s.sys.resetCb with
        | some f => some ({ s with node := { s.node with log := .resetCb f (src.getD 1 0) :: s.node.log } }, E.ok)
        | none => some (s, E.ok)
      | 0x31 =>
        match dst with
        | none => some (s, E.notAllowedBroadcast)
        | some tp =>
          if env.serial = serialOf src then
            some ({ s with node := (s.node.changeType env tp (typeOf src)).1 }, E.ok)
          else some (s, E.ok)
      | _ => some (s, E.sysUnknownCommand)

/-- A process request (message object 0), io_can_sync_handler.c:174-210.  `none`: the transmission
loop does not end (C10). -/
def processRequest (env : Env) (s : Slave) (now dlc : Nat) : Option Slave :=
  let s := checkImage env (reqRx s) now
  match s.node.sendProcessData env with
  | none => none
  | some n =>
    let s := rxProcessMain env { s with node := n } now dlc
    if env.sysErr ∧ 0 < s.node.errq.getCount then
      some { s with node := (sendOneError env s.node).1 }
    else some s

/-- `can_sync_handler_rx`, io_can_sync_handler.c:102-288, without the tunnel call at its end. -/
def handlerRx (env : Env) (s : Slave) (now obj dlc id : Nat) (data : List Byte) : Option Slave :=
  let s :=
    if Node.bit obj &&& s.node.hw.isrRx ≠ 0 then                          -- 132
      match s.node.slotRow obj with
      | some tp => (rxData env s tp id dlc data).1                        -- 150
      | none => s
    else s
  let s := if obj = 0 then processRequest env s now dlc else some s       -- 174
  if obj = 2 ∨ (obj = 3 ∧ env.sysObj2 = true) then                        -- 219
    s.bind fun s => (sysMsg env s (sysNrOfId id) dlc data).map fun r =>
      { r.1 with node := r.1.node.report env r.2 }                        -- 247
  else s

/-! ## Registration of callbacks -/

/-- `can_config_module_valid`, io_can_config.c:1678-1693 as used by the setters. -/
def setModCb (env : Env) (s : Slave) (typ : List Byte) (nr : Nat) (f : SyncVars → Nat → SyncVars) :
    Slave × Err :=
  match s.node.findTypeNr env typ nr with
  | some tp => ({ s with sync := f s.sync tp }, E.ok)
  | none => (s, E.moduleNotFound)

/-- `can_sys_set_system_time_cbk`, io_can_sys.c:546-552. -/
def setTimeCb (s : Slave) (f : Option Nat) : Slave :=
  if s.sys.timeCb = none then { s with sys := { s.sys with timeCb := f } } else s

/-- `li_can_slv_sys_set_factory_reset_cbk`, io_can_sys.c:558-564. -/
def setResetCb (s : Slave) (f : Option Nat) : Slave :=
  if s.sys.resetCb = none then { s with sys := { s.sys with resetCb := f } } else s

/-- `can_sys_init`, io_can_sys.c:139-147. -/
def sysInit (env : Env) (v : SysVars) : SysVars :=
  { v with first := false, firstCb := none, rand := if env.randAck then env.serial else v.rand }

/-- `li_can_slv_init`, io_can.c:97-277 (the parts not in `Node.init`: startup baud rate,
`can_sys_init`, `can_sync_init`). -/
def init (env : Env) (s : Slave) (baud : Nat) : Slave × Err :=
  let r := s.node.init env
  let s := { s with node := r.1, link := { s.link with startup := baud } }
  if r.2 = E.ok then ({ s with sys := sysInit env s.sys, sync := syncInit env s.sync }, E.ok)
  else (s, r.2)

end Slave
end LiCan
