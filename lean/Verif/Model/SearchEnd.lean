import Verif.Model.Ignore
/-!
# The end of a baud rate search with the receive interrupt between its steps

`can_reconnect_off` (source/core/io_can_reconnect.c:833-1030) runs in the background;
`can_main_hw_handler_rx` (source/arch/canpie_adapter/io_can_main_hw_handler.c:112-166) runs in the receive
interrupt and reads `can_reconnect.state` (line 124) and, with the option
LI_CAN_SLV_RECONNECT_IGNORE_RX_AFTER_RECONNECT_FOR_A_TIME, `can_reconnect.back_time` (line 131).  The
background's work is cut where it writes one of them and where the controller begins to receive.

Simplifications
* A frame within a step counts as one before it or one behind it.  What the interrupt reads to decide
  whether to ignore a frame does not change within a step.
* `back_time` is written in one access (a `uint32_t`).
* The error reports of the background and of the interrupt are not interleaved within one call (C120 ff.
  treat the error queue).
-/
namespace LiCan

/-- Where `can_reconnect_off` is. -/
inductive EPc
  /-- before line 876 -/
  | closed
  /-- behind line 880: the node is operational, `can_reconnect.state` still that of the search -/
  | opened
  /-- behind line 896: `can_reconnect.state` is CAN_RECONNECT_STATE_OFF -/
  | off
  /-- behind line 1026: the application knows of the end -/
  | told
  /-- within line 1028: the tick counter is read, `back_time` not yet written -/
  | clocked (t : Nat)
  /-- behind line 1028 -/
  | done
deriving DecidableEq, Repr

/-- The stack, the place and the local variables `baud` and `err == LI_CAN_SLV_ERR_OK` of
`can_reconnect_off`. -/
structure Ending where
  s    : Stack
  pc   : EPc := .closed
  baud : Nat := 0
  ok   : Bool := false

inductive EEv
  /-- the background does its next step; `now`: the tick counter, used by the step that reads it -/
  | go (now : Nat)
  /-- the receive interrupt -/
  | rx (now obj dlc id : Nat) (ext : Bool) (data : List Byte)
deriving DecidableEq, Repr

/-- `can_reconnect_off` up to the mode OPERATIONAL, io_can_reconnect.c:848-880. -/
def Stack.rcOpen (env : AEnv) (s : Stack) : Stack × Err :=
  let baud := s.rc.back
  let s := s.setR fun c => { c with process := false }
  let s := (s.nodeMode env .stopped).1
  let r := s.baudRate env baud
  if r.2 = E.ok then r.1.nodeMode env .operational else r

/-- io_can_reconnect.c:885-896: LI_CAN_SLV_STATE_RUNNING, CAN_RECONNECT_STATE_OFF, the number of searches. -/
def Stack.rcClose (s : Stack) (ok : Bool) : Stack :=
  let s := if ok then { s with lcsa := .running } else s
  s.setR fun c => { c with state := .off, nr := u16 (c.nr + 1) }

namespace Ending

/-- One step of the background, io_can_reconnect.c:833-1030. -/
def go (env : AEnv) (e : Ending) (now : Nat) : Ending :=
  match e.pc with
  | .closed =>
    let r := e.s.rcOpen env
    ⟨r.1, .opened, e.s.rc.back, decide (r.2 = E.ok)⟩
  | .opened => { e with s := e.s.rcClose e.ok, pc := .off }
  | .off => { e with s := if e.ok then e.s.rcDone env e.baud else e.s, pc := .told }
  | .told => { e with pc := .clocked now }
  | .clocked t => { e with s := e.s.setR fun c => { c with backTime := env.t2ms t }, pc := .done }
  | .done => e

/-- One event; `opt`: compiled with the option.  `none`: the interrupt does not return (C10). -/
def step (env : AEnv) (opt : Bool) (e : Ending) : EEv → Option Ending
  | .go now => some (e.go env now)
  | .rx now obj dlc id ext data =>
    (if opt then e.s.rxI env now obj dlc id ext data else e.s.rx env now obj dlc id ext data).map
      fun s => { e with s := s }

def run (env : AEnv) (opt : Bool) : Ending → List EEv → Option Ending
  | e, [] => some e
  | e, i :: is => (e.step env opt i).bind fun e' => run env opt e' is

end Ending
end LiCan
