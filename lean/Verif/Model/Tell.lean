import Verif.Model.NoSearch
/-!
# The bit rate told to the monitor CPU

With `LI_CAN_SLV_MAIN_MON` (two CPUs) the main CPU tells the monitor CPU a bit rate with
`li_can_slv_port_sync_baudrate`: at the end of a search (source/core/io_can_reconnect.c:868) and in `lcsa_start`
(source/api/li_can_slv_api.c:153 with search, 234 without).  Here is, for the functions of Model/Reconnect and
Model/NoSearch that contain such a call, the rate they tell; what they do besides is in those models.

Simplification: the function of the port only passes the rate on, it does not change the stack of the main CPU.
-/
namespace LiCan
namespace Stack

/-- `can_reconnect_off`, io_can_reconnect.c:847, 868 -/
def rcOffTells (s : Stack) : Option Nat := some s.rc.back

/-- `li_can_slv_reconnect_process`, io_can_reconnect.c:542-740: the calls of `can_reconnect_off`. -/
def rcProcessTells (env : AEnv) (s : Stack) (now : Nat) (intid : Pending) (lec : Lec) : Option Nat :=
  if s.rc.process = false then none
  else
    match s.rc.state with
    | .startup =>
      if intid = .msg then (s.setR fun c => { c with cause := .startup }).rcOffTells
      else if s.rc.time < now then (s.setR fun c => { c with cause := .noTraffic, back := s.slv.link.startup }).rcOffTells
      else none
    | .on =>
      if intid = .msg then s.rcOffTells
      else if intid = .lec ∧ lec = .none then none
      else
        match lec with
        | .none => s.rcOffTells
        | .bit0 => if 10 ≤ u16 (s.rc.bit0 + 1) then s.rcOffTells else none
        | .undef => if intid = .none then s.rcOffTells else none
        | _ => none
    | _ => none

/-- `can_main_hw_handler_error`, io_can_main_hw_handler.c:206-254: what comes before the processing of a search -/
def hwErrorMid (env : AEnv) (s : Stack) (now : Nat) (bus : BusState) (lec : Lec) : Stack :=
  if (bus ≠ .active ∨ lec ≠ .none) ∧ s.rc.state = .off then (s.hwBusOff env now bus lec).hwPassive env now bus else s

/-- `can_main_hw_handler_error`, io_can_main_hw_handler.c:182-272 -/
def hwErrorTells (env : AEnv) (s : Stack) (now : Nat) (bus : BusState) (lec : Lec) : Option Nat :=
  let s := s.hwErrorMid env now bus lec
  if s.rc.state ≠ .off then s.rcProcessTells env now s.rc.pending lec else none

/-- `li_can_slv_process`, io_can.c:291-328 -/
def processTells (env : AEnv) (s : Stack) (now : Nat) (bus : BusState) (lec : Lec) : Option Nat :=
  { s with slv := s.slv.trigger env.toEnv now }.hwErrorTells env now bus lec

/-- `lcsa_start` with search, li_can_slv_api.c:139-154: in the download state, after the rate was set -/
def startTells (s : Stack) : Option Nat := if s.lcsa = .download then some s.slv.link.startup else none

/-- `lcsa_start` without search, li_can_slv_api.c:232-235: `lcsa_get_baudrate`, before the rate is set -/
def startTellsN (s : Stack) : Option Nat := some s.slv.link.cur

/-- the rate an input makes the main CPU tell, with search -/
def tells (env : AEnv) (s : Stack) : SIn → Option Nat
  | .process now bus lec => s.processTells env now bus lec
  | .start _ => s.startTells
  | _ => none

/-- the same without search -/
def tellsN (s : Stack) : SIn → Option Nat
  | .start _ => s.startTellsN
  | _ => none

end Stack
end LiCan
