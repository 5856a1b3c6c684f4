import Verif.Model.Reconnect
/-! # Histories of the whole stack -/
namespace LiCan

/-- The four callbacks of the baud rate search. -/
inductive RCb
  | onStart | onStop | suStart | suStop

/-- What can happen to the stack. -/
inductive SIn
  /-- a frame received by the controller -/
  | rx (now obj dlc id : Nat) (ext : Bool) (data : List Byte)
  /-- `lcsa_process`, with the bus state and last error the driver reports -/
  | process (now : Nat) (bus : Stack.BusState) (lec : Lec)
  /-- `lcsa_init` -/
  | init (baud : Nat)
  /-- `lcsa_start` -/
  | start (now : Nat)
  /-- `lcsa_set_state` -/
  | setState (l : LState)
  /-- `lcsa_set_baudrate` -/
  | setBaud (b : Nat)
  /-- a function of the slave (frames, `lcsa_process` and the two functions above are not
  called that way and are ignored here) -/
  | api (i : In)
  /-- registration of a transfer handler -/
  | hnd (h : Hnd) (f : Option Nat)
  /-- `li_can_slv_dload_start` -/
  | dlStart (c : Component)
  /-- a transfer function called outside of a handler -/
  | act (a : Act)
  /-- `li_can_slv_uload_data_from_buffer`, returning after at most `fuel` polls of the clock -/
  | ulData (fuel : Nat) (data : List Byte)
  /-- `can_async_tunnel_putc` -/
  | putc (x : Byte)
  /-- one more turn of the loop in a `can_async_tunnel_putc` that has not returned -/
  | retry
  /-- `can_async_xon`, `can_async_xoff` -/
  | xonOff (code : Byte)
  /-- `can_async_tunnel_shutdown` -/
  | shutdown
  /-- `can_async_send_data_to_async_data_tx_queue` -/
  | enqueue (nr dlc : Nat) (src : List Byte)
  /-- a write access to the transfer info -/
  | info (o : XInfo.Op)
  /-- registration of a callback of the search, io_can_reconnect.c:747-793 -/
  | rcCb (k : RCb) (f : Option Nat)

namespace Stack

/-- `li_can_slv_reconnect_set_.._cbk`, io_can_reconnect.c:747-793: only the first registration counts. -/
def setRcCb (s : Stack) (k : RCb) (f : Option Nat) : Stack :=
  match k with
  | .onStart => if s.rc.onStart = none then s.setR fun c => { c with onStart := f } else s
  | .onStop => if s.rc.onStop = none then s.setR fun c => { c with onStop := f } else s
  | .suStart => if s.rc.suStart = none then s.setR fun c => { c with suStart := f } else s
  | .suStop => if s.rc.suStop = none then s.setR fun c => { c with suStop := f } else s

/-- functions of the slave not covered by another input -/
def isApi : In → Bool
  | .frame .. | .trigger _ | .setBaud _ | .init _ => false
  | _ => true

/-- One input; `none`: the stack has not returned. -/
def step (env : AEnv) (s : Stack) : SIn → Option Stack
  | .rx now obj dlc id ext data => s.rx env now obj dlc id ext data
  | .process now bus lec => some (s.process env now bus lec)
  | .init baud => some (s.init env baud).1
  | .start now => some (s.start env now).1
  | .setState l => some { s with lcsa := l }
  | .setBaud b => some (s.baudRate env b).1
  | .api i => if isApi i then (s.slv.step env.toEnv i).map fun v => { s with slv := v } else some s
  | .hnd h f => some (s.setHnd h f).1
  | .dlStart c => some (s.dlStart env c).1
  | .act a => some (s.act env a)
  | .ulData fuel data => s.ulData env fuel data
  | .putc x => some (s.putc env x).1
  | .retry => some (if s.tnl.lock = 0 then s else (s.putcRetry env).1)
  | .xonOff code => some (s.xonOff env code).1
  | .shutdown => some (s.tnlShutdown env).1
  | .enqueue nr dlc src => some (s.enqueue env nr dlc src).1
  | .info o => some { s with info := s.info.step env.crc o }
  | .rcCb k f => some (s.setRcCb k f)

/-- A history. -/
def run (env : AEnv) : Stack → List SIn → Option Stack
  | s, [] => some s
  | s, i :: is => (step env s i).bind fun s' => run env s' is

/-- Static initialisers; `info` survives a reset. -/
def boot (mem : Nat → List Byte) (info : XInfo) : Stack := { slv := Slave.boot mem, info := info }

end Stack
end LiCan
