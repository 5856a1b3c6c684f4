import Verif.Model.Async
/-!
# The queue for received control messages (`CAN_ASYNC_CTRL_RX_QUEUE`)

`can_async_send_data_to_async_ctrl_rx_queue`, source/async/io_can_async.c:196-202 and 252-322, for an application
(not LI_CAN_SLV_BOOT).  The receive interrupt writes; the port reads (`can_port_trigger_can_async_ctrl_rx_queue` wakes it), the variables
`can_async_rx_queue_read`, `.._state` and the array are exported for it.  The reader is not part of the repository.  It is taken to do what the
variables are made for: when the state is not 0, take the entry at the read index, advance the index like the writer does, and subtract one
from the state.

Simplifications
* The receive interrupt is not interrupted: the writer is one step.
* The reader is cut at its accesses to the state; taking the entry and advancing the index (no other function uses it) are one step.
* The module table may be another one at each message (argument `n`).
-/
namespace LiCan

/-- an entry: module number and eight bytes -/
abbrev CEntry := Nat × List Byte

/-- where the reader is -/
inductive CPc
  | idle
  /-- an entry is taken, the state is not yet decreased -/
  | sub
  /-- the state was read, the new value is not yet written -/
  | store (v : Nat)
deriving DecidableEq, Repr

/-- The queue, the reader, and what an observer notes: entries accepted, entries taken, how often the port was woken. -/
structure CtrlQ where
  buf   : Nat → CEntry := fun _ => (0, List.replicate 8 0)
  write : Nat := 0
  read  : Nat := 0
  state : Nat := 0
  pc    : CPc := .idle
  acc   : List CEntry := []
  got   : List CEntry := []
  woken : Nat := 0

/-- What may happen next. -/
inductive CEv
  /-- receive interrupt with a control message, for the module table of `n` -/
  | rx (n : Node) (nr : Nat) (src : List Byte)
  /-- next step of the reader -/
  | port

namespace CtrlQ

/-- the next index, io_can_async.c:306-313 -/
def advance (len i : Nat) : Nat := if i < len - 1 then u16 (i + 1) else 0

/-- `can_async_send_data_to_async_ctrl_rx_queue`, io_can_async.c:260-321; `len` is CAN_ASYNC_CTRL_RX_QUEUE_LENGTH. -/
def rx (env : Env) (len : Nat) (q : CtrlQ) (n : Node) (nr : Nat) (src : List Byte) : CtrlQ × Err :=
  match n.findNr env nr with
  | none => (q, E.ok)                                                              -- 268-271
  | some tp =>
    if n.silent tp = 0 then (q, E.ok)                                              -- 273-276
    else if ¬ q.state < len then (q, E.asyncRxOverflow)                            -- 278-281
    else
      let x : CEntry := (nr, (List.range 8).map fun i => src.getD i 0)
      ({ q with buf := upd q.buf q.write x                                         -- 283-304
                write := advance len q.write                                       -- 306-313
                state := u16 (q.state + 1)                                         -- 315
                acc := q.acc ++ [x], woken := q.woken + 1 }, E.ok)                 -- 318

/-- the reader; `atomic`: the state is decreased with interrupts off -/
def port (atomic : Bool) (len : Nat) (q : CtrlQ) : CtrlQ :=
  match q.pc with
  | .idle => if q.state = 0 then q else { q with got := q.got ++ [q.buf q.read], read := advance len q.read, pc := .sub }
  | .sub => if atomic then { q with state := q.state - 1, pc := .idle } else { q with pc := .store q.state }
  | .store v => { q with state := v - 1, pc := .idle }

/-- one event -/
def step (env : Env) (atomic : Bool) (len : Nat) (q : CtrlQ) : CEv → CtrlQ
  | .rx n nr src => (q.rx env len n nr src).1
  | .port => q.port atomic len

/-- a history -/
def run (env : Env) (atomic : Bool) (len : Nat) (q : CtrlQ) (es : List CEv) : CtrlQ := es.foldl (step env atomic len) q

end CtrlQ
end LiCan
