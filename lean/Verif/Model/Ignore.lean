import Verif.Model.StackRun
/-!
# The option LI_CAN_SLV_RECONNECT_IGNORE_RX_AFTER_RECONNECT_FOR_A_TIME

Models the lines io_can_main_hw_handler.c:129-135, which are not compiled in the configuration of the other
models.  All other functions are the same.
-/
namespace LiCan
namespace Stack

/-- `can_main_hw_handler_rx` with the option, io_can_main_hw_handler.c:112-166: the lines before the test
(120-128), the test (131; `LI_CAN_SLV_RECONNECT_IGNORE_RX_MS` is 20, the sum is a `uint32_t`), and the
function as without the option.  (The assignment in line 120 is repeated there, with the same value.) -/
def rxI (env : AEnv) (s : Stack) (now obj dlc id : Nat) (ext : Bool) (data : List Byte) : Option Stack :=
  let t := s.setR fun c => { c with pending := .msg }
  if t.rc.state ≠ .off then some t
  else if now < env.ms2t (u32 (t.rc.backTime + 20)) then some t
  else s.rx env now obj dlc id ext data

/-- one input of the stack compiled with the option -/
def stepI (env : AEnv) (s : Stack) : SIn → Option Stack
  | .rx now obj dlc id ext data => s.rxI env now obj dlc id ext data
  | i => s.step env i

/-- a history of the stack compiled with the option -/
def runI (env : AEnv) : Stack → List SIn → Option Stack
  | s, [] => some s
  | s, i :: is => (s.stepI env i).bind fun s' => runI env s' is

end Stack
end LiCan
