import Verif.Model.Slave
/-! # Histories of received frames, application calls and clock readings on the slave -/
namespace LiCan

/-- What can happen to the slave. -/
inductive In
  /-- a frame received in message object `obj`, at time `now` (`can_sync_handler_rx`) -/
  | frame (now obj dlc id : Nat) (data : List Byte)
  /-- `li_can_slv_sync_trigger_process_periode` (from `lcsa_process`, io_can.c:303) -/
  | trigger (now : Nat)
  /-- `li_can_slv_sync_get_process_periode` -/
  | getPeriode
  /-- `li_can_slv_sync_set_process_cycle_time` -/
  | setCycle (t : Nat)
  /-- `li_can_slv_set_node_mode` -/
  | setMode (m : Mode)
  /-- `lcsa_set_baudrate` -/
  | setBaud (b : Nat)
  /-- a call acting on the module table -/
  | table (o : Op)
  /-- `can_sync_set_pr_call_fnc` -/
  | allCb (f : Option Nat)
  /-- `li_can_slv_sync_set_process_image_valid_cbk` -/
  | validCb (typ : List Byte) (nr : Nat) (f : Option Nat)
  /-- `li_can_slv_sync_set_process_image_not_valid_cbk` -/
  | invalidCb (typ : List Byte) (nr : Nat) (f : Option Nat)
  /-- `li_can_slv_sync_set_process_request_cbk` -/
  | reqCb (typ : List Byte) (nr : Nat) (f : Option Nat)
  /-- `can_sync_set_first_process_request_call_fnc`, io_can_sync.c:1275-1279 -/
  | firstCb (f : Option Nat)
  /-- `can_sys_set_first_status_request_call_fnc`, io_can_sys.c:540-544 -/
  | firstStatusCb (f : Option Nat)
  /-- `can_sys_set_system_time_cbk` -/
  | timeCb (f : Option Nat)
  /-- `li_can_slv_sys_set_factory_reset_cbk` -/
  | resetCb (f : Option Nat)
  /-- `lcsa_init` -/
  | init (baud : Nat)

namespace Slave

/-- One input; `none` if the stack does not return (only the loop of C10). -/
def step (env : Env) (s : Slave) : In → Option Slave
  | .frame now obj dlc id data => handlerRx env s now obj dlc id data
  | .trigger now => some (trigger env s now)
  | .getPeriode => some (getPeriode env s).1
  | .setCycle t => some (setCycle env s t).1
  | .setMode m => some { s with link := (Slave.setMode env s.link m).1 }
  | .setBaud b => some { s with link := (Slave.setBaud s.link b).1 }
  | .table o => some { s with node := (s.node.step env o).1 }
  | .allCb f => some { s with sync := { s.sync with allCb := f } }
  | .validCb typ nr f => some (setModCb env s typ nr fun v tp => { v with validCb := upd v.validCb tp f }).1
  | .invalidCb typ nr f =>
    some (setModCb env s typ nr fun v tp => { v with invalidCb := upd v.invalidCb tp f }).1
  | .reqCb typ nr f => some (setModCb env s typ nr fun v tp => { v with reqCb := upd v.reqCb tp f }).1
  | .firstCb f => some { s with sync := { s.sync with firstCb := f } }
  | .firstStatusCb f => some { s with sys := { s.sys with firstCb := f } }
  | .timeCb f => some (setTimeCb s f)
  | .resetCb f => some (setResetCb s f)
  | .init baud => some (Slave.init env s baud).1

/-- A history. -/
def run (env : Env) : Slave → List In → Option Slave
  | s, [] => some s
  | s, i :: is => (step env s i).bind fun s' => run env s' is

/-- Static initialisers. -/
def boot (mem : Nat → List Byte) : Slave := { node := Node.boot mem }

end Slave
end LiCan
