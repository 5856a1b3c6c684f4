import Verif.Model.SlaveRun
import Verif.Model.XBuf
import Verif.Model.XInfo
/-!
# The whole stack: slave, asynchronous messages, transfers, tunnel, reconnect

Static variables of source/xload/li_can_slv_xload.c, source/async/io_can_async.c,
source/core/io_can_reconnect.c and the stack state of source/core/io_can.c.
Configuration: that of `Verif.Model.Slave` with `LI_CAN_SLV_DLOAD`,
`LI_CAN_SLV_DLOAD_BUFFER_INTERNAL`, `LI_CAN_SLV_ULOAD`, `LI_CAN_SLV_ASYNC_TUNNEL`, `LI_CAN_SLV_RECONNECT`, without
`CAN_ASYNC_CTRL_RX_QUEUE` and `LI_CAN_SLV_ASYNC_TUNNEL_TIME_STAMP`.

Simplifications
* A handler of the application may do any sequence of the actions `Act` before it returns; it does
  not register handlers, start a transfer or upload a block from inside a handler.
* The tick counter is an argument `now`, or the k-th reading `clock k` in the loop of the upload.
-/
namespace LiCan

/-- What a transfer handler may do with the stack while it runs. -/
inductive Act
  /-- `li_can_slv_dload_start_ackn` -/
  | startAckn (nr maxBytes : Nat) (delay : Byte)
  /-- `li_can_slv_dload_end_ackn` -/
  | endAckn (nr : Nat)
  /-- `li_can_slv_dload_termination` (error numbers are 16 bit) -/
  | termination (nr : Nat) (e : Err)
  /-- `li_can_slv_dload_version_answer` -/
  | versionAnswer (nr : Nat) (index : Byte) (crc dlId : Nat)
  /-- `li_can_slv_uload_info_answer` -/
  | infoAnswer (nr : Nat) (index : Byte) (size : Nat)
  /-- `li_can_slv_uload_end` -/
  | uloadEnd (nr : Nat)
  /-- `xload_buffer_get_byte` -/
  | get
  /-- `dload_store_buf_state` -/
  | store
  /-- `dload_restore_buf_state` -/
  | restore
  /-- `dload_remove_bytes` -/
  | remove (n : Nat)
  /-- write to `xload_component` -/
  | edit (f : Component → Component)
  /-- write to `xload_component_version_request` -/
  | editVer (f : Component → Component)

/-- The application's side of one call. -/
structure Reply where
  /-- actions of the handler, in order -/
  acts : List Act := []
  /-- return code -/
  err : Err := E.ok
  /-- `*status = LI_CAN_SLV_XLOAD_STACK_END_HANDLING` on return -/
  stackEnd : Bool := true
  /-- `*size_of_component` -/
  size : Nat := 0

/-- Everything outside the stack. -/
structure AEnv extends Env where
  /-- `LI_CAN_SLV_XLOAD_BUFFER_SIZE_DLOAD` -/
  bufSize : Nat
  /-- behaviour of the application in its k-th call -/
  reply : Nat → ACall → Reply
  /-- k-th reading of the tick counter in `li_can_slv_uload_data_from_buffer` -/
  clock : Nat → Nat
  /-- `li_can_slv_xload_info_crc16_update` over the protected part of `xload_info` -/
  crc : InfoData → Nat
  /-- `LI_CAN_SLV_RECONNECT_PROCESS_STARTUP_CHECK_LEC` -/
  checkLec : Bool := false
  /-- `CAN_RECONNECT_STARTUP_NO_TRAFFIC_TIME`, ms -/
  suTime : Nat := 600
  /-- `LI_CAN_SLV_RECONNECT_BAUDRATE_SWITCH_TIME`, ms -/
  swTime : Nat := 2
  /-- `CAN_RECONNECT_IDLE_CNT` -/
  idleMax : Nat := 2

/-- Static variables of li_can_slv_xload.c:118-137 and the counters of `dload_buffer`
(li_can_slv_xload_buffer_types.h:68-87).  `block_status`, `start_address` and `nr_bytes_end` are
never read outside the function that writes them and are left out. -/
structure XLoad where
  /-- `xload_in_progress == LI_CAN_SLV_XLOAD_IN_PROGRESS` -/
  busy  : Bool := false
  /-- `xload_component` -/
  comp  : Component := {}
  /-- `xload_component_version_request` -/
  vcomp : Component := {}
  /-- `dload_buffer` -/
  buf   : XBuf := .zero
  /-- `bytes_cnt_of_block` (`uint16_t`) -/
  bytes : Nat := 0
  /-- `nr_of_can_objs` (`uint16_t`) -/
  objs  : Nat := 0
  /-- `max_bytes_per_block` -/
  maxBytes : Nat := 0
  /-- `delay_between_objs_msec` -/
  delay : Nat := 0
  /-- registered handlers; `none` = `NULL` -/
  hnd   : Hnd → Option Nat := fun _ => none

/-- `can_async_tunnel.state`, include/li_can_slv/async/io_can_async.h. -/
inductive TState
  | free | active | shutdown
deriving DecidableEq, Repr

/-- `can_async_tunnel` and `can_async_tunnel_tmpTXobj`, io_can_async.c:168-219. -/
structure Tunnel where
  state : TState := .free
  own   : Nat := 125
  prim  : Nat := 125
  sec   : Nat := 125
  typ   : Nat := 0
  delay : Nat := 0
  /-- `can_async_tunnel_tmpTXobj.data[0 .. used-1]` -/
  tmp   : List Byte := []
  /-- `can_async_tnl_lock` -/
  lock  : Nat := 0

/-- `can_async_data_tx_queue`, io_can_async.c:160-163. -/
structure DataQ where
  buf   : Nat → Frame := fun _ => ⟨0, 0, []⟩
  write : Nat := 0
  read  : Nat := 0
  state : Nat := 0

/-- `li_can_slv_reconnect_state_t`, include/li_can_slv/core/io_can_reconnect.h:82-89. -/
inductive RState
  | deactivated | off | startup | on | idle
deriving DecidableEq, Repr

/-- `li_can_slv_reconnect_cause_t`, io_can_reconnect.h:95-104, without the monitor node. -/
inductive RCause
  | noTraffic | startup | ewrn | boff | download
deriving DecidableEq, Repr

/-- Last error code, include/li_can_slv/arch/canpie_adapter/io_can_port.h:46-54. -/
inductive Lec
  | none | stuff | form | ack | bit1 | bit0 | crc | undef
deriving DecidableEq, Repr

/-- `li_can_slv_reconnect_main_node_msg_pending`, io_can_reconnect.h:61-63. -/
inductive Pending
  | none | lec | msg
deriving DecidableEq, Repr

/-- `lcsa_state_t`, include/li_can_slv/api/li_can_slv_api_types.h:53-60. -/
inductive LState
  | running | download | reconnect | init | stopped
deriving DecidableEq, Repr

/-- `can_reconnect` (io_can_reconnect.c:156-170), `process_on_off` (172), the pending flag (140) and
the callbacks (146-154).  `back`, `id_on`, `id_off` are never read and are left out. -/
structure Recon where
  state    : RState := .off
  cause    : RCause := .noTraffic
  /-- `lec_cnt_bit0` -/
  bit0     : Nat := 0
  time     : Nat := 0
  /-- `bdr_index` -/
  idx      : Nat := 0
  nr       : Nat := 0
  /-- `idle_cnt` -/
  idle     : Nat := 0
  /-- `time_next_bdr_change` -/
  next     : Nat := 0
  /-- `back_bdr` -/
  back     : Nat := 0
  /-- `back_time` -/
  backTime : Nat := 0
  /-- `process_on_off` -/
  process  : Bool := false
  pending  : Pending := .none
  onStart  : Option Nat := Option.none
  onStop   : Option Nat := Option.none
  suStart  : Option Nat := Option.none
  suStop   : Option Nat := Option.none

/-- The modelled state. -/
structure Stack where
  slv    : Slave
  x      : XLoad := {}
  tnl    : Tunnel := {}
  q      : DataQ := {}
  rc     : Recon := {}
  /-- `xload_info` -/
  info   : XInfo := ⟨⟨0, {}, 0, 0, 0⟩, 0⟩
  /-- `li_can_slv_state`, io_can.c:70 -/
  lcsa   : LState := .init
  /-- number of application calls with a reply so far -/
  callN  : Nat := 0
  /-- number of tick readings in the upload loop so far -/
  clockN : Nat := 0

namespace Stack

/-- change the node part -/
def setNode (s : Stack) (n : Node) : Stack := { s with slv := { s.slv with node := n } }

/-- `can_async_send_data_to_async_ctrl_tx_queue` with `CAN_ASYNC_CTRL_TX_TYPE_SLAVE`,
io_can_async.c:640-666: the result of the driver is ignored, the function returns OK. -/
def ctrlTx (env : AEnv) (s : Stack) (nr : Nat) (data : List Byte) : Stack :=
  s.setNode (s.slv.node.send env.toEnv ⟨asyncCtrlTxId nr, 8, data⟩).1

/-- record a call into the application -/
def logCall (s : Stack) (c : ACall) : Stack :=
  s.setNode { s.slv.node with log := .app c :: s.slv.node.log }

end Stack
end LiCan
