import Verif.Model.StackRun
/-!
# The stack without automatic baud rate search

Models the parts that differ when `LI_CAN_SLV_RECONNECT` is not defined (li_can_slv_config_internal.h:211-215):
`lcsa_start` of source/api/li_can_slv_api.c, the receive and error handlers of
source/arch/canpie_adapter/io_can_main_hw_handler.c.  All other functions are those of the other models, with
`env.recon = false`.

The component `rc` of the state does not exist in this build.  It is carried along: `rxN` notes the reception there
(as the function with search does), and nothing modelled here reads that.
-/
namespace LiCan
namespace Stack

/-- `can_main_hw_handler_rx`, io_can_main_hw_handler.c:112-166 without the lines 118-136. -/
def rxN (env : AEnv) (s : Stack) (now obj dlc id : Nat) (ext : Bool) (data : List Byte) : Option Stack :=
  let s := s.setR fun c => { c with pending := .msg }
  if ext then some s
  else
    (s.slv.handlerRx env.toEnv now obj dlc id data).map fun slv =>
      let s := ((s.setSlv env slv).processTx env now).1
      let s := s.ctrlRx env obj id data
      s.dataRx env obj dlc data

/-- `li_can_slv_process`, io_can.c:291-328.  `can_main_hw_handler_error` (io_can_main_hw_handler.c:182-272) only
reads the state of the controller in this build. -/
def processN (env : AEnv) (s : Stack) (now : Nat) (_bus : BusState) (_lec : Lec) : Stack :=
  let s := { s with slv := s.slv.trigger env.toEnv now }
  (s.processTx env now).1

/-- `lcsa_start`, li_can_slv_api.c:100-288 without `LI_CAN_SLV_RECONNECT` (237-258, 262-285); the result of stopping
the node is ignored (238). -/
def startN (env : AEnv) (s : Stack) : Stack × Err :=
  let s := (s.nodeMode env .stopped).1
  let r := s.baudRate env s.slv.link.startup
  let r :=
    if r.2 = E.ok then
      let r := r.1.nodeMode env .operational
      if r.2 = E.ok then ({ r.1 with lcsa := .running }, r.2) else r
    else r
  if r.2 = E.ok then ({ r.1.startAck env with lcsa := .running }, E.ok) else r

/-- one input; the callbacks of the search (io_can_reconnect.c:747-793) do not exist -/
def stepN (env : AEnv) (s : Stack) : SIn → Option Stack
  | .rx now obj dlc id ext data => s.rxN env now obj dlc id ext data
  | .process now bus lec => some (s.processN env now bus lec)
  | .start _ => some (s.startN env).1
  | .rcCb _ _ => some s
  | i => s.step env i

/-- a history -/
def runN (env : AEnv) : Stack → List SIn → Option Stack
  | s, [] => some s
  | s, i :: is => (s.stepN env i).bind fun s' => runN env s' is

end Stack
end LiCan
