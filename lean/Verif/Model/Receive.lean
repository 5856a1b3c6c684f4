import Verif.Model.StackRun
import Verif.Model.Driver
/-!
# Receive path of the driver

Models `can_main_hw_handler_rx` of source/arch/canpie_adapter/io_can_main_hw_handler.c as the driver calls it, with
`CpMsgIsExtended`, `CpMsgGetStdId`, `CpMsgGetData` of verify/canpie/source/canpie-fd/cp_msg.c and `CpCoreBufferGetDlc`,
`CpCoreBufferGetData` of verify/canpie-fd_device/unittest_canpie-fd.c, for `CP_CAN_FD` 0.

Simplifications
* Pointers are not `NULL`, the port is initialised and the buffer number is valid (`CheckParam`).
* The eight bytes on the stack before they are written are an argument.
-/
namespace LiCan
namespace CpMsg

/-- `CpMsgIsExtended`, cp_msg.c:409-425 (`CP_MSG_CTRL_EXT_BIT` is 1). -/
def isExtended (m : CpMsg) : Bool := m.ctrl &&& 0x01#8 != 0

/-- `CpMsgGetStdId`, cp_msg.c:317-333 (`CP_MASK_STD_FRAME` is 0x7FF). -/
def getStdId (m : CpMsg) : Nat := m.id % 2048

/-- `CpMsgGetData`, cp_msg.c:201-234, for a position below eight. -/
def getData (m : CpMsg) (i : Nat) : Byte := m.data.getD i 0

end CpMsg

/-- `CpCoreBufferGetData(.., 0, n)` into the array `dst`, unittest_canpie-fd.c:242-274: nothing is written if more than
eight bytes are asked for. -/
def bufferGetData (b : CpMsg) (dst : List Byte) (n : Nat) : List Byte :=
  if 8 < n then dst else (List.range n).map b.getData ++ dst.drop n

/-- `can_main_hw_handler_rx`, io_can_main_hw_handler.c:112-166, for message `m` in buffer `idx` with the contents `b`;
`stale` are the bytes of the array `data` before.  Both errors of the driver functions are ignored there. -/
def Stack.hwRx (env : AEnv) (s : Stack) (now idx : Nat) (m b : CpMsg) (stale : List Byte) : Option Stack :=
  s.rx env now idx b.dlc m.getStdId m.isExtended (bufferGetData b stale b.dlc)

/-- What can happen to the stack with its driver: a message received, or anything else. -/
inductive HIn
  | frame (now idx : Nat) (m b : CpMsg)
  | other (i : SIn)

/-- One input. -/
def Stack.hwStep (env : AEnv) (stale : List Byte) (s : Stack) : HIn → Option Stack
  | .frame now idx m b => s.hwRx env now idx m b stale
  | .other i => s.step env i

/-- A history; `stale` are the bytes found on the stack at each input. -/
def Stack.hwRun (env : AEnv) : (Nat → List Byte) → Stack → List HIn → Option Stack
  | _, s, [] => some s
  | stale, s, i :: is => (s.hwStep env (stale 0) i).bind fun s' => Stack.hwRun env (fun n => stale (n + 1)) s' is

end LiCan
