import Verif.Model.Basic
/-!
# CAN identifiers and acceptance filters

The identifier arithmetic that is repeated at many places of the stack.  Module numbers are
`uint16_t`; `(nr - 1) << 2` is computed in `int` and the sum is stored in a `uint16_t`, i.e.
modulo 2^16 (`nr = 0` gives `-4`).
-/
namespace LiCan

/-- `(module_nr - 1) << 2` modulo 2^16. -/
def nrShift (nr : Nat) : Nat := ((4 * ((nr : Int) - 1)) % 65536).toNat

/-- `base + ((module_nr - 1) << 2) + obj` stored in a `uint16_t`.  Used by
io_can_main.c:444 (base 0x400, `can_main_sync_process_tx_data_cnfg`), io_can_main.c:537
(0x003), io_can_config.c:1851, 2292 (0x200), io_can_config.c:1886, 2355 (0x600),
io_can_async.c:650 (0x601) and io_can_async.c:742 (0x603). -/
def idOf (base nr obj : Nat) : Nat :=
  (((base : Int) + 4 * ((nr : Int) - 1) + obj) % 65536).toNat

/-- synchronous transmit object, io_can_main.c:444, `CAN_CONFIG_DATA_TX_MASK` 0x400
(li_can_slv_config_defines.h:129). -/
def syncTxId (nr obj : Nat) : Nat := idOf 0x400 nr obj
/-- synchronous receive object, io_can_config.c:2292 and 2307, `CAN_CONFIG_DATA_RX_MASK` 0x200. -/
def syncRxId (nr obj : Nat) : Nat := idOf 0x200 nr obj
/-- system message sent by the slave, io_can_main.c:537, `CAN_CONFIG_SYS_TX_MASK` 0x003. -/
def sysTxId (nr : Nat) : Nat := idOf 0x003 nr 0
/-- system message addressed to module `nr`: what the filter of io_can_config.c:2374 lets through
and io_can_sync_handler.c:126 decodes (`CAN_CONFIG_SYS_MSG_ID` 0x002). -/
def sysRxId (nr : Nat) : Nat := idOf 0x002 nr 0
/-- asynchronous control message to the slave, io_can_config.c:2355,
`CAN_CONFIG_ASYNC_CTRL_RX_SLAVE_ID` 0x600. -/
def asyncCtrlRxId (nr : Nat) : Nat := idOf 0x600 nr 0
/-- asynchronous control message from the slave, `CAN_CONFIG_ASYNC_CTRL_TX_SLAVE_ID` 0x601,
io_can_async.c:640-666. -/
def asyncCtrlTxId (nr : Nat) : Nat := idOf 0x601 nr 0
/-- asynchronous data to the slave, filter of io_can_config.c:2367,
`CAN_CONFIG_ASYNC_DATA_RX_SLAVE_ID` 0x602. -/
def asyncDataRxId (nr : Nat) : Nat := idOf 0x602 nr 0
/-- asynchronous data from the slave, `CAN_CONFIG_ASYNC_DATA_TX_SLAVE_ID` 0x603,
io_can_async.c:676-756. -/
def asyncDataTxId (nr : Nat) : Nat := idOf 0x603 nr 0
/-- process request, `CAN_CONFIG_PROCESS_ID` (li_can_slv_config_defines.h:98). -/
def processId : Nat := 0x001

/-- Module number of a system message, io_can_sync_handler.c:126:
`((canid >> 2) & 0x007F) + 1`. -/
def sysNrOfId (id : Nat) : Nat := (id / 4) % 128 + 1
/-- Module number of a synchronous data frame, io_can_sync.c:517:
`((can_id - 0x200) >> 2) + 1` (unsigned arithmetic, stored in 16 bit). -/
def syncNrOfId (id : Nat) : Nat := u16 (((((id : Int) - 0x200) % 2^32).toNat) / 4 + 1)
/-- Object number of a synchronous data frame, io_can_sync.c:502 `can_id & 0x0003`. -/
def syncObjOfId (id : Nat) : Nat := id % 4
/-- Module number of an asynchronous control frame, io_can_async_handler.c:85:
`((canid - 0x600) >> 2) + 1` (unsigned arithmetic, stored in 16 bit). -/
def asyncNrOfId (id : Nat) : Nat := u16 (((((id : Int) - 0x600) % 2^32).toNat) / 4 + 1)

/-- The number bits of one module: `0x01FC & ((module_nr - 1) << 2)`, io_can_config.c:2347. -/
def filterBits (nr : Nat) : BitVec 16 := 0x01FC#16 &&& BitVec.ofNat 16 (nrShift nr)

/-- One iteration of the loops io_can_config.c:1876-1880 and 2345-2349, on
`(can_id_or, can_id_and)`. -/
def filterFold (acc : BitVec 16 × BitVec 16) (nr : Nat) : BitVec 16 × BitVec 16 :=
  (acc.1 ||| filterBits nr, acc.2 &&& filterBits nr)

/-- `mask`, io_can_config.c:1873-1882 and 2342-2351: start with the broadcast number 1, fold over
the module numbers, `0x01FC & (can_id_and | ~can_id_or)`. -/
def filterMask (nrs : List Nat) : BitVec 16 :=
  let r := nrs.foldl filterFold (filterBits 1, filterBits 1)
  0x01FC#16 &&& (r.2 ||| ~~~ r.1)

/-- `CAN_CONFIG_ACCEPTANCE_MASK | mask` (0x0603), io_can_config.c:2374. -/
def acceptMask (nrs : List Nat) : BitVec 16 := 0x0603#16 ||| filterMask nrs

/-- What a CAN controller message object programmed with `(fid, mask)` lets through (hardware
behaviour behind `CpCoreBufferConfig`, trusted): the masked bits agree. -/
def hwAccepts (fid mask id : BitVec 16) : Bool := (id &&& mask) == (fid &&& mask)

end LiCan
