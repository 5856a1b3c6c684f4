import Verif.Model.TnlIrq
/-! # Flow control of the tunnel while session messages arrive

The port calls `can_async_xon` and `can_async_xoff` (source/async/io_can_async.c:876-916, handed to it by open) in the main
loop; the receive interrupt opens and closes sessions (`TnlIrq.msg`).  Here a call is a sequence of steps, each of which uses the
session once; an interrupt may come between any two of them and runs to completion.
Simplifications: those of Model/TnlIrq.lean; the driver's answer, which the call returns, is left out. -/
namespace LiCan

/-- Where the main loop is in a call (`on`: XON); what has been read before is an argument. -/
inductive FlowPc
  /-- io_can_async.c:881, 902: the session is compared with ACTIVE -/
  | check (on : Bool)
  /-- 888, 909: `prim_modnr` is read -/
  | prim (on : Bool)
  /-- 889, 910: `mod_own` is read for the argument -/
  | own (on : Bool) (p : Nat)
  /-- 889, 910: the message is handed to the driver -/
  | send (on : Bool) (p nr : Nat)
deriving DecidableEq, Repr

/-- What an observer sees, in order. -/
inductive FlowObs
  /-- what a session message did -/
  | sess (o : TnlObs)
  /-- module `nr` sends XON or XOFF to partner `p` -/
  | flow (on : Bool) (nr p : Nat)
  /-- a call returned `ERR_MSG_CAN_ASYNC_TNL_WRONG_STATE` -/
  | wrong
deriving DecidableEq, Repr

/-- The session, the call in progress, what was observed. -/
structure FlowIrq where
  t   : TnlIrq := {}
  pc  : Option FlowPc := none
  log : List FlowObs := []

namespace FlowIrq

/-- the next step of the main loop, io_can_async.c:876-916 -/
def main (w : FlowIrq) : FlowIrq :=
  match w.pc with
  | none => w
  | some (.check on) => if w.t.st = .active then { w with pc := some (.prim on) } else { w with pc := none, log := w.log ++ [.wrong] }
  | some (.prim on) => { w with pc := some (.own on w.t.prim) }
  | some (.own on p) => { w with pc := some (.send on p w.t.own) }
  | some (.send on p nr) => { w with pc := none, log := w.log ++ [.flow on nr p] }

/-- a session message; what it did is what it adds to the observations of Model/TnlIrq.lean -/
def msg (w : FlowIrq) (m : TnlIrq.Msg) : FlowIrq :=
  { w with t := w.t.msg m, log := w.log ++ ((w.t.msg m).log.drop w.t.log.length).map .sess }

inductive Evt
  /-- the port calls `can_async_xon` or `can_async_xoff` (only if the main loop is in no call) -/
  | call (on : Bool)
  /-- the main loop does the next step -/
  | main
  /-- a message of the session -/
  | msg (m : TnlIrq.Msg)
  /-- the application shuts the tunnel down (only if the main loop is in no call), io_can_async.c:1027-1035 as a whole -/
  | shutdown
deriving DecidableEq, Repr

def step (w : FlowIrq) : Evt → FlowIrq
  | .call on => if w.pc = none then { w with pc := some (.check on) } else w
  | .main => w.main
  | .msg m => w.msg m
  | .shutdown =>
    if w.pc = none ∧ w.t.st = .active then { w with t := { w.t with st := .shutdown }, log := w.log ++ [.sess .closing] } else w

def run (w : FlowIrq) (es : List Evt) : FlowIrq := es.foldl step w

end FlowIrq
end LiCan
