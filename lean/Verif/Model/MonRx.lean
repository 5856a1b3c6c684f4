import Verif.Model.Mon
import Verif.Model.Stack
/-!
# The receive functions of the two controllers

`can_main_hw_handler_rx` of source/arch/canpie_adapter/io_can_main_hw_handler.c and `can_mon_hw_handler_rx` of
source/arch/canpie_adapter/io_can_mon_hw_handler.c, for `LI_CAN_SLV_MON` with `LI_CAN_SLV_RECONNECT`, with and without the option
LI_CAN_SLV_RECONNECT_IGNORE_RX_AFTER_RECONNECT_FOR_A_TIME.  What they hand on to is `Mon.handlerMain` and `Mon.handlerMon`.

Simplifications
* The search is an arbitrary environment that may change its variables between any two interrupts (it is modelled in `Model/Reconnect`, with
  two controllers in `Model/MonSearch`).
* The asynchronous messages (io_can_main_hw_handler.c:157-163) are not followed: they do not reach the process image.
* `CpCoreBufferGetDlc` and `CpCoreBufferGetData` deliver length and bytes of the frame.
-/
namespace LiCan

/-- configuration and CAN driver -/
structure AdEnv extends MonEnv where
  /-- LI_CAN_SLV_RECONNECT_IGNORE_RX_AFTER_RECONNECT_FOR_A_TIME -/
  opt   : Bool
  /-- `CpMsgGetStdId` of an identifier of 29 bits: the driver decides how it is cut (a macro takes 16 bits, the function 11) -/
  stdId : Nat → Nat

/-- the slave with both controllers and the variables of the search that the receive functions use -/
structure MonAd where
  d : Mon
  /-- `li_can_slv_reconnect_get_state` -/
  rst : RState := .off
  /-- `li_can_slv_reconnect_get_back_time_ms` -/
  back : Nat := 0
  /-- `li_can_slv_reconnect_main_node_msg_pending` -/
  pending : Pending := .none

/-- what can happen -/
inductive AdIn
  /-- receive interrupt of the main controller -/
  | main (now obj dlc id : Nat) (ext : Bool) (data : List Byte)
  /-- receive interrupt of the monitor controller -/
  | mon (now obj dlc id : Nat) (ext : Bool) (data : List Byte)
  /-- the search changes its variables -/
  | search (rst : RState) (back : Nat) (pending : Pending)
  /-- a call of the application (received frames are not given that way and are ignored here) -/
  | call (i : Mon.MIn)

namespace MonAd

/-- the test in both functions, io_can_main_hw_handler.c:122-134 and io_can_mon_hw_handler.c:109-119; `LI_CAN_SLV_RECONNECT_IGNORE_RX_MS`
is 20, the sum is a `uint32_t`. -/
def skip (e : AdEnv) (a : MonAd) (now : Nat) : Bool :=
  a.rst ≠ .off || (e.opt && now < e.ms2t (u32 (a.back + 20)))

/-- `can_main_hw_handler_rx`, io_can_main_hw_handler.c:112-166. -/
def mainRx (e : AdEnv) (a : MonAd) (now obj dlc id : Nat) (ext : Bool) (data : List Byte) : Option MonAd :=
  let a := { a with pending := .msg }                                              -- 121
  if a.skip e now then some a
  else if ext then some a                                                          -- 138
  else (a.d.handlerMain e.toMonEnv now obj dlc id data).map fun d => { a with d := d }

/-- `can_mon_hw_handler_rx`, io_can_mon_hw_handler.c:101-134: there is no test for extended frames. -/
def monRx (e : AdEnv) (a : MonAd) (now obj dlc id : Nat) (ext : Bool) (data : List Byte) : MonAd :=
  if a.skip e now then a
  else { a with d := a.d.handlerMon e.toMonEnv now obj dlc (if ext then e.stdId id else id) data }

/-- calls only -/
def isCall : Mon.MIn → Bool
  | .main .. | .mon .. => false
  | _ => true

/-- one input -/
def step (e : AdEnv) (a : MonAd) : AdIn → Option MonAd
  | .main now obj dlc id ext data => a.mainRx e now obj dlc id ext data
  | .mon now obj dlc id ext data => some (a.monRx e now obj dlc id ext data)
  | .search r b p => some { a with rst := r, back := b, pending := p }
  | .call i => if isCall i then (a.d.step e.toMonEnv i).map fun d => { a with d := d } else some a

/-- a history -/
def run (e : AdEnv) : MonAd → List AdIn → Option MonAd
  | a, [] => some a
  | a, i :: is => (a.step e i).bind fun a => run e a is

end MonAd
end LiCan
