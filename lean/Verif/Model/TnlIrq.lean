import Verif.Model.Async
/-! # The tunnel's functions while session messages arrive

The port calls `can_async_tunnel_putc`, `li_can_slv_process` calls `can_async_tunnel_process_tx_data` and the application
`can_async_tunnel_shutdown` in the main loop; messages that open and close sessions are handled in the receive interrupt
(`can_async_rx`, io_can_async.c:447-578).  Neither the lock (C96) nor anything else keeps the interrupt from changing the session while one of
these functions runs.  Here a call of the main loop is a sequence of steps, each of which uses the session once; an interrupt may come between any
two of them and runs to completion.
Simplifications: taking and releasing the lock belongs to the beginning and the end of the call (C96 treats it step by step); the temporary object
is used under the lock only and is changed in one step; whether the waiting time is over and whether the transmit queue has room is arbitrary at
every step; the connection type (which decides between acknowledge and deny, C34) and the receive object (C68) are left out. -/
namespace LiCan

/-- Where the main loop is in a call; what has been read before is an argument. -/
inductive TnlPc
  /-- io_can_async.c:934, the session is compared with ACTIVE -/
  | putCheck (x : Byte)
  /-- 936-937 -/
  | putByte (x : Byte)
  /-- 941 -/
  | putFull
  /-- 946, `mod_own` is read for the argument -/
  | putArg
  /-- 946, the object is handed over under this number -/
  | putSend (nr : Nat)
  /-- 953 -/
  | putClr
  /-- 985 -/
  | flCheck
  /-- 987 -/
  | flTime
  /-- 990, `mod_own` is read for the argument -/
  | flArg
  /-- 990, the object is handed over under this number -/
  | flSend (nr : Nat)
  /-- 994 -/
  | flClr
  /-- 1027 -/
  | shCheck
  /-- 1033 -/
  | shSet
  /-- 1035 -/
  | shSend
deriving DecidableEq, Repr

/-- What an observer sees, in order. -/
inductive TnlObs
  /-- a byte was taken by `can_async_tunnel_putc` -/
  | put (x : Byte)
  /-- a data object of module `nr` was given to the transmit queue -/
  | sent (nr : Nat) (xs : List Byte)
  /-- a session of module `nr` with partner `p` was opened -/
  | opened (nr p : Nat)
  /-- the session was closed -/
  | closed
  /-- the application's shutdown took effect -/
  | closing
  /-- module `nr` asked partner `p` to close -/
  | closeReq (nr p : Nat)
  /-- the partner refused to close -/
  | resumed
  /-- an open request was denied although the port was not asked -/
  | denied
  /-- a call returned `ERR_MSG_CAN_ASYNC_TNL_WRONG_STATE` -/
  | wrong
deriving DecidableEq, Repr

/-- The session (io_can_async.c:168-177), the temporary object (205-218), the call in progress, and what was observed. -/
structure TnlIrq where
  st   : TState := .free
  own  : Nat := 125
  prim : Nat := 125
  tmp  : List Byte := []
  pc   : Option TnlPc := none
  log  : List TnlObs := []

namespace TnlIrq

/-- the next step of the main loop (`can_async_tunnel_putc`, io_can_async.c:925-968; `can_async_tunnel_process_tx_data`, 976-1010;
`can_async_tunnel_shutdown`, 1022-1038); `go`: the waiting time is over, `ok`: the queue has room -/
def main (w : TnlIrq) (go ok : Bool) : TnlIrq :=
  match w.pc with
  | none => w
  | some (.putCheck x) => if w.st = .active then { w with pc := some (.putByte x) } else { w with pc := none, log := w.log ++ [.wrong] }
  | some (.putByte x) => { w with tmp := w.tmp ++ [x], pc := some .putFull, log := w.log ++ [.put x] }
  | some .putFull => { w with pc := if w.tmp.length = 8 then some .putArg else none }
  | some .putArg => { w with pc := some (.putSend w.own) }
  | some (.putSend nr) => if ok then { w with pc := some .putClr, log := w.log ++ [.sent nr w.tmp] } else { w with pc := some .putArg }
  | some .putClr => { w with tmp := [], pc := none }
  | some .flCheck => if w.st = .active then { w with pc := some .flTime } else { w with pc := none, log := w.log ++ [.wrong] }
  | some .flTime => { w with pc := if 0 < w.tmp.length ∧ go then some .flArg else none }
  | some .flArg => { w with pc := some (.flSend w.own) }
  | some (.flSend nr) => if ok then { w with pc := some .flClr, log := w.log ++ [.sent nr w.tmp] } else { w with pc := none }
  | some .flClr => { w with tmp := [], pc := none }
  | some .shCheck => if w.st = .active then { w with pc := some .shSet } else { w with pc := none, log := w.log ++ [.wrong] }
  | some .shSet => { w with st := .shutdown, pc := some .shSend, log := w.log ++ [.closing] }
  | some .shSend => { w with pc := none, log := w.log ++ [.closeReq w.own w.prim] }

/-- does the main loop hold `can_async_tnl_lock`? -/
def locked (w : TnlIrq) : Bool :=
  match w.pc with
  | none | some .shCheck | some .shSet | some .shSend => false
  | _ => true

/-- The messages of the session, as the receive interrupt handles them (of an awake module with number `nr`). -/
inductive Msg
  /-- open request of partner `p`; `agree`: the port's answer -/
  | opn (nr p : Nat) (agree : Bool)
  /-- close request; `agree`: the port's answer -/
  | cls (agree : Bool)
  /-- close acknowledge -/
  | ack (nr p : Nat)
  /-- close deny -/
  | deny (nr p : Nat)
deriving DecidableEq, Repr

/-- the session variables of io_can_async.c:528-531 and 556-559 -/
def freed (w : TnlIrq) : TnlIrq := { w with st := .free, own := 125, prim := 125, log := w.log ++ [.closed] }

/-- `can_async_rx`: open (io_can_async.c:447-517), close (519-538), close acknowledge (548-562), close deny (567-578) -/
def msg (w : TnlIrq) : Msg → TnlIrq
  | .opn nr p agree =>
    if w.st = .free then if agree then { w with st := .active, own := nr, prim := p, log := w.log ++ [.opened nr p] } else w
    else { w with log := w.log ++ [.denied] }
  | .cls agree => if agree then w.freed else w
  | .ack nr p => if w.st = .shutdown ∧ w.prim = p ∧ w.own = nr then w.freed else w
  | .deny nr p =>
    if w.st = .shutdown ∧ w.prim = p ∧ w.own = nr then { w with st := .active, log := w.log ++ [.resumed] } else w

/-- `can_async_tunnel_process_tx_data` at the end of the receive interrupt (io_can_sync_handler.c:283), as a whole; busy if the lock is taken -/
def flush (w : TnlIrq) (go ok : Bool) : TnlIrq :=
  if w.locked then w
  else if w.st = .active then
    if 0 < w.tmp.length ∧ go ∧ ok then { w with tmp := [], log := w.log ++ [.sent w.own w.tmp] } else w
  else { w with log := w.log ++ [.wrong] }

/-- What may happen next. -/
inductive Evt
  /-- the main loop calls `putc` (only if it is in no call) -/
  | putc (x : Byte)
  /-- the main loop calls the processing of the tunnel -/
  | process
  /-- the application calls shutdown -/
  | shutdown
  /-- the main loop does the next step -/
  | main (go ok : Bool)
  /-- a message of the session -/
  | msg (m : Msg)
  /-- the processing of the tunnel in the receive interrupt -/
  | rx (go ok : Bool)
deriving DecidableEq, Repr

/-- a call begins -/
def call (w : TnlIrq) (pc : TnlPc) : TnlIrq := if w.pc = none then { w with pc := some pc } else w

def step (w : TnlIrq) : Evt → TnlIrq
  | .putc x => w.call (.putCheck x)
  | .process => w.call .flCheck
  | .shutdown => w.call .shCheck
  | .main go ok => w.main go ok
  | .msg m => w.msg m
  | .rx go ok => w.flush go ok

def run (w : TnlIrq) (es : List Evt) : TnlIrq := es.foldl step w

end TnlIrq
end LiCan
