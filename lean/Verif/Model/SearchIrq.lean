import Verif.Model.Reconnect
/-!
# Baud rate search with the receive interrupt between its steps

`can_main_hw_handler_error` (source/arch/canpie_adapter/io_can_main_hw_handler.c:182-272) runs in the
background (`li_can_slv_process`); `can_main_hw_handler_rx` (112-166) runs in the receive interrupt.  Both
use `li_can_slv_reconnect_main_node_msg_pending`: the interrupt writes it (line 121), the background passes
its value to `li_can_slv_reconnect_process` (line 261) and clears it when a search begins
(io_can_reconnect.c:432 and 469).

The background's work is cut where it uses that variable.  A step is not cut further: everything behind such
a point does not depend on the variable (`Stack.rcProcess_pend`, `Stack.rcOn_pend` in Lemmas/SearchIrq.lean:
writing it before or after the step is the same), and within a step the controller is stopped before its rate
changes, so that a frame within the step counts as one before it or one behind it.

Simplifications
* Searches after errors only (`li_can_slv_reconnect_on_main_node_online`, `.._recovery`), main node only.
* A frame while no search is on only writes the variable here; what else it does is not part of this model.
-/
namespace LiCan
namespace Stack

/-- `li_can_slv_reconnect_on_main_node_online` and `.._recovery` up to `can_reconnect_on`,
io_can_reconnect.c:419-433 and 456-470 (`rcError` without its last call). -/
def rcErrorA (env : AEnv) (s : Stack) (cause : RCause) : Stack :=
  let s := s.notify s.rc.onStart .onStart
  let s := (s.nodeMode env .stopped).1
  let s := (s.nodeMode env .listen).1
  s.setR fun c => { c with state := .on, cause := cause, pending := .lec }

end Stack

/-- What the background still has to do. -/
inductive Todo
  /-- `li_can_slv_reconnect_process` called, the value of the variable read (io_can_main_hw_handler.c:261) -/
  | process (now : Nat) (intid : Pending) (lec : Lec)
  /-- `can_reconnect_on(10)` or `(20)` at io_can_reconnect.c:435, 472 -/
  | on (now : Nat)
deriving DecidableEq, Repr

/-- The stack and the place the background is at. -/
structure Hunt where
  s    : Stack
  todo : Option Todo := none

namespace Hunt

inductive HEv
  /-- bus off or error passive is seen while no search is on -/
  | error (now : Nat) (cause : RCause)
  /-- the error handler passes the variable to the search -/
  | look (now : Nat) (lec : Lec)
  /-- the background does what it has to do -/
  | go
  /-- receive interrupt -/
  | msg
deriving DecidableEq, Repr

/-- One event. -/
def step (env : AEnv) (h : Hunt) : HEv → Hunt
  | .error now cause =>
    match h.todo with
    | some _ => h
    | none => if h.s.rc.state = .off ∧ h.s.lcsa ≠ .stopped then ⟨h.s.rcErrorA env cause, some (.on now)⟩ else h
  | .look now lec =>
    match h.todo with
    | some _ => h
    | none => if h.s.rc.state ≠ .off then ⟨h.s, some (.process now h.s.rc.pending lec)⟩ else h
  | .go =>
    match h.todo with
    | none => h
    | some (.process now intid lec) => ⟨h.s.rcProcess env now intid lec, none⟩
    | some (.on now) => ⟨h.s.rcOn env now false, none⟩
  | .msg => { h with s := h.s.setR fun c => { c with pending := .msg } }

end Hunt
end LiCan
