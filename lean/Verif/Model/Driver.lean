import Verif.Model.Basic
/-!
# Transmit path of the driver

Models `can_main_hw_send_msg` of source/arch/canpie_adapter/io_can_main_hw.c and what it calls: the message
functions of verify/canpie/source/canpie-fd/cp_msg.c, the FIFO of cp_fifo.c and `CpCoreFifoWrite`,
`CpCoreFifoRead`, `CpCoreBufferSend` of verify/canpie-fd_device/unittest_canpie-fd.c, for `CP_CAN_FD` 0,
`CP_CAN_MSG_MACRO` 0 and `CP_FIFO_MACRO` 0 (cp_platform.h).

Simplifications
* Pointers are not `NULL`, the port is initialised and the buffer number is valid (`CheckParam`).
* `CP_BUFFER_PND` (the transmit buffer is busy) is set and cleared by the interrupt of a real controller; it
  is an argument here.  (The device of the unit tests never sets it.)
-/
namespace LiCan

/-- `CpCanMsg_ts`, canpie.h:1003-1080, without the user field. -/
structure CpMsg where
  /-- `ulIdentifier` -/
  id   : Nat
  /-- `ubMsgDLC` -/
  dlc  : Nat
  /-- `ubMsgCtrl` -/
  ctrl : BitVec 8
  /-- `tuMsgData.aubByte`, eight bytes -/
  data : List Byte
deriving DecidableEq, Repr

namespace CpMsg

/-- `CpMsgClear`, cp_msg.c:64-102. -/
def clear (_ : CpMsg) : CpMsg := ⟨0, 0, 0, List.replicate 8 0⟩

/-- `CpMsgInit`, cp_msg.c:362-376 (`CP_MASK_MSG_FORMAT` 0x03). -/
def init (m : CpMsg) (fmt : BitVec 8) : CpMsg := { m with id := 0, dlc := 0, ctrl := fmt &&& 0x03 }

/-- `CpMsgSetDlc`, cp_msg.c:691-716 (the argument is a `uint8_t`). -/
def setDlc (m : CpMsg) (dlc : Nat) : CpMsg :=
  if m.ctrl &&& 0x02 ≠ 0 then
    if u8 dlc < 16 then { m with dlc := u8 dlc } else m
  else
    if u8 dlc < 9 then { m with dlc := u8 dlc } else m

/-- `CpMsgSetIdentifier`, cp_msg.c:749-771. -/
def setIdentifier (m : CpMsg) (id : Nat) : CpMsg :=
  if m.ctrl &&& 0x01 ≠ 0 then { m with id := id % 2 ^ 29 } else { m with id := id % 2 ^ 11 }

/-- `memcpy(&can_msg.tuMsgData, data, dlc)`, io_can_main_hw.c:347; `none`: beyond the eight bytes of the field
or beyond the source. -/
def copy (m : CpMsg) (src : List Byte) (n : Nat) : Option CpMsg :=
  if n ≤ 8 ∧ n ≤ src.length then some { m with data := src.take n ++ m.data.drop n } else none

/-- The message of `can_main_hw_send_msg`, io_can_main_hw.c:337-347 (`can_id` and `dlc` are `uint16_t`).  `CP_MSG_FORMAT_CBFF`
is 0. -/
def build (id dlc : Nat) (src : List Byte) : Option CpMsg :=
  let m : CpMsg := ⟨0, 0, 0, List.replicate 8 0⟩                   -- `= {0}`
  (((m.clear.init 0).setDlc dlc).setIdentifier id).copy src dlc

end CpMsg

/-- `CpFifo_ts`, cp_fifo.h:89-117, with the array it administers. -/
structure CpFifo (α : Type) where
  inn   : Nat
  out   : Nat
  max   : Nat
  /-- `ulState` -/
  state : BitVec 32
  buf   : Nat → α

namespace CpFifo
variable {α : Type}

/-- `CpFifoInit`, cp_fifo.c:166-175. -/
def init (f : CpFifo α) (size : Nat) : CpFifo α := { f with inn := 0, out := 0, max := size, state := 1 }

/-- `CpFifoIsEmpty`, cp_fifo.c:182-192. -/
def isEmpty (f : CpFifo α) : Bool := f.state == 1
/-- `CpFifoIsFull`, cp_fifo.c:199-210. -/
def isFull (f : CpFifo α) : Bool := f.state == 2

/-- `CpFifoFree`, cp_fifo.c:82-106 (`uint32_t`). -/
def free (f : CpFifo α) : Nat :=
  if f.state = 1 then f.max
  else if f.state = 2 then 0
  else if f.out < f.inn then f.max - (f.inn - f.out)
  else f.out - f.inn

/-- `CpFifoPending`, cp_fifo.c:217-242. -/
def pending (f : CpFifo α) : Nat :=
  if f.state = 1 then 0
  else if f.state = 2 then f.max
  else if f.inn < f.out then f.max - (f.out - f.inn)
  else f.inn - f.out

/-- `CpFifoIncIn`, cp_fifo.c:113-132. -/
def incIn (f : CpFifo α) : CpFifo α :=
  let i := u32 (f.inn + 1)
  let i := if f.max ≤ i then 0 else i
  let st := if i = f.out then 2#32 else f.state
  { f with inn := i, state := st &&& 0xFFFFFFFE#32 }

/-- `CpFifoIncOut`, cp_fifo.c:139-159. -/
def incOut (f : CpFifo α) : CpFifo α :=
  let o := u32 (f.out + 1)
  let o := if f.max ≤ o then 0 else o
  let st := if f.inn = o then 1#32 else f.state
  { f with out := o, state := st &&& 0xFFFFFFFD#32 }

/-- Storing one element as described at `CpFifoDataInPtr` (cp_fifo.h:131-146) and done in
unittest_canpie-fd.c:806-822; `false`: `eCP_ERR_FIFO_FULL`. -/
def put (f : CpFifo α) (x : α) : CpFifo α × Bool :=
  if f.isFull then (f, false) else ({ f with buf := upd f.buf f.inn x }.incIn, true)

/-- Taking one element, `CpCoreFifoRead`, unittest_canpie-fd.c:718-733; `none`: `eCP_ERR_FIFO_EMPTY`. -/
def take (f : CpFifo α) : CpFifo α × Option α :=
  if f.isEmpty then (f, none) else (f.incOut, some (f.buf f.out))

end CpFifo

/-- The transmit side of the driver: `tx_fifo` (io_can_main_hw.c:86) and the messages given to the controller
(`CpCoreBufferSend`, unittest_canpie-fd.c:337-398, writes them to its log), latest first. -/
structure CpDrv where
  fifo : CpFifo CpMsg
  sent : List CpMsg

namespace CpDrv

/-- `can_main_hw_init`, io_can_main_hw.c:111: sixteen places. -/
def init (d : CpDrv) : CpDrv := { d with fifo := d.fifo.init 16 }

/-- `CpCoreFifoWrite`, unittest_canpie-fd.c:766-834; `pnd` is the state of `CP_BUFFER_PND`. -/
def write (d : CpDrv) (pnd : Bool) (m : CpMsg) : CpDrv × Bool :=
  if pnd then
    let r := d.fifo.put m
    ({ d with fifo := r.1 }, r.2)
  else ({ d with sent := m :: d.sent }, true)

/-- `can_main_hw_send_msg`, io_can_main_hw.c:334-358; `none`: undefined behaviour. -/
def send (d : CpDrv) (pnd : Bool) (id dlc : Nat) (src : List Byte) : Option (CpDrv × Err) :=
  (CpMsg.build id dlc src).map fun m =>
    let r := d.write pnd m
    (r.1, if r.2 then E.ok else E.msgSend)

/-- The interrupt of the controller when a message has left: the next one is taken from the FIFO
(`CpCoreFifoRead`) and given to the controller. -/
def next (d : CpDrv) : CpDrv :=
  match d.fifo.take with
  | (f, some m) => { fifo := f, sent := m :: d.sent }
  | (f, none) => { d with fifo := f }

end CpDrv
end LiCan
