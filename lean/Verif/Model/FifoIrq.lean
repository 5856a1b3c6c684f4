import Verif.Model.Driver
/-! # The frame FIFO of the driver, statement by statement

`CpCoreFifoWrite` (unittest_canpie-fd.c:766-834) is called by the main loop; the transmit interrupt takes frames out of the same FIFO
(`CpCoreFifoRead`), and the receive interrupt answers process requests, i.e. it may call `CpCoreFifoWrite` itself.  Nothing disables the
interrupts (neither `can_main_hw_send_msg`, io_can_main_hw.c:334-358, nor the driver).  Here a write of the main loop is a sequence of steps,
each of which reads or writes one variable of the FIFO; an interrupt may come between any two of them and runs to completion.
Simplifications: the frame is copied in one step; the interrupt is not interrupted itself. -/
namespace LiCan

/-- Where the main loop is in a write of `CpCoreFifoWrite` with `CpFifoIncIn` (cp_fifo.c:113-132) in it; what has been read before is an argument. -/
inductive PutPc
  /-- unittest_canpie-fd.c:806, `CpFifoIsFull` -/
  | check
  /-- 816, `CpFifoDataInPtr` -/
  | ptr
  /-- 817, `memcpy` to place `i` -/
  | copy (i : Nat)
  /-- cp_fifo.c:115, `ulIndexIn` is read -/
  | inc
  /-- cp_fifo.c:115, the increased index is written -/
  | incW (v : Nat)
  /-- cp_fifo.c:116 -/
  | wrap
  /-- cp_fifo.c:118 -/
  | wrapW
  /-- cp_fifo.c:120 (the interrupt that takes frames does not change `ulIndexIn`; both indices are read in one step) -/
  | cmp
  /-- cp_fifo.c:125 -/
  | setFull
  /-- cp_fifo.c:131, `ulState` is read -/
  | clr
  /-- cp_fifo.c:131, the new value is written -/
  | clrW (v : BitVec 32)
deriving DecidableEq, Repr

/-- The FIFO, the write in progress, and what an observer notes: the frames whose write has returned `eCP_ERR_NONE`, how many writes were
refused, the frames taken by the transmit interrupt; each in order. -/
structure FifoIrq (α : Type) where
  f    : CpFifo α
  pc   : Option (α × PutPc) := none
  acc  : List α := []
  refd : Nat := 0
  got  : List α := []

/-- What may happen next. -/
inductive FifoEv (α : Type)
  /-- the main loop calls `CpCoreFifoWrite` (only if it is not in a call) -/
  | write (x : α)
  /-- the main loop does the next step -/
  | main
  /-- transmit interrupt -/
  | take
  /-- a frame is written by an interrupt -/
  | irqWrite (y : α)

namespace FifoIrq
variable {α : Type}

/-- one step of the main loop -/
def main (w : FifoIrq α) : FifoIrq α :=
  match w.pc with
  | none => w
  | some (x, pc) =>
    match pc with
    | .check => if w.f.isFull then { w with pc := none, refd := w.refd + 1 } else { w with pc := some (x, .ptr) }
    | .ptr => { w with pc := some (x, .copy w.f.inn) }
    | .copy i => { w with f := { w.f with buf := upd w.f.buf i x }, pc := some (x, .inc) }
    | .inc => { w with pc := some (x, .incW (u32 (w.f.inn + 1))) }
    | .incW v => { w with f := { w.f with inn := v }, pc := some (x, .wrap) }
    | .wrap => { w with pc := some (x, if w.f.max ≤ w.f.inn then .wrapW else .cmp) }
    | .wrapW => { w with f := { w.f with inn := 0 }, pc := some (x, .cmp) }
    | .cmp => { w with pc := some (x, if w.f.inn = w.f.out then .setFull else .clr) }
    | .setFull => { w with f := { w.f with state := 2#32 }, pc := some (x, .clr) }
    | .clr => { w with pc := some (x, .clrW (w.f.state &&& 0xFFFFFFFE#32)) }
    | .clrW v => { w with f := { w.f with state := v }, pc := none, acc := w.acc ++ [x] }

/-- `CpCoreFifoRead` in the transmit interrupt -/
def take (w : FifoIrq α) : FifoIrq α :=
  let r := w.f.take
  { w with f := r.1, got := w.got ++ r.2.toList }

/-- `CpCoreFifoWrite` in an interrupt -/
def irqWrite (w : FifoIrq α) (y : α) : FifoIrq α :=
  let r := w.f.put y
  if r.2 then { w with f := r.1, acc := w.acc ++ [y] } else { w with f := r.1, refd := w.refd + 1 }

def step (w : FifoIrq α) : FifoEv α → FifoIrq α
  | .write x => if w.pc.isNone then { w with pc := some (x, .check) } else w
  | .main => w.main
  | .take => w.take
  | .irqWrite y => w.irqWrite y

def run (w : FifoIrq α) (es : List (FifoEv α)) : FifoIrq α := es.foldl step w

/-- after `can_main_hw_init` (io_can_main_hw.c:111), with room for `n` frames; `b`: what is in the array -/
def start (n : Nat) (b : Nat → α) : FifoIrq α := { f := CpFifo.init ⟨0, 0, 0, 0, b⟩ n }

end FifoIrq
end LiCan
