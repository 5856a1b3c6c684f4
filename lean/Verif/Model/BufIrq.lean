import Verif.Model.XBuf
/-! # Reading the transfer buffer while data arrive

The application reads the transfer buffer in its main loop (`xload_buffer_get_byte`, li_can_slv_xload_buffer.c:114-134); received data are added
in the receive interrupt (`li_can_slv_dload_data`, li_can_slv_xload.c:591-620), where a block end also removes trailing bytes
(`dload_remove_bytes`, li_can_slv_xload.c:662).  Nothing disables the interrupts.  Here a read is a sequence of steps, each of which reads or writes
one variable the interrupt uses; an interrupt may come between any two of them and runs to completion.
Simplifications: the read index, which no interrupt modelled here changes, is used and serviced in one step; the consequences of an overflow
(termination of the transfer, C45) and the start of a transfer, which empties the buffer, are not modelled. -/
namespace LiCan

/-- Where the main loop is in a read; what has been read before is an argument. -/
inductive GetPc
  /-- li_can_slv_xload_buffer.c:116, `nr_bytes` is compared with 0 -/
  | check
  /-- 121, the byte is read -/
  | data
  /-- 122, `nr_bytes` is read -/
  | dec (x : Byte)
  /-- 122, the decreased value is written -/
  | decW (x : Byte) (v : Nat)
  /-- 125-132, the read index -/
  | inc (x : Byte)
deriving DecidableEq, Repr

/-- The buffer, the read in progress, and what an observer notes: the bytes accepted by the interrupts (without those removed again), the bytes
returned by completed reads, the number of reads that returned `ERR_MSG_CAN_DLOAD_BUF_UNDERFLOW`, and how many bytes were accepted while the main
loop was between reading and writing `nr_bytes`. -/
structure BufIrq where
  b     : XBuf
  pc    : Option GetPc := none
  acc   : List Byte := []
  got   : List Byte := []
  under : Nat := 0
  hid   : Nat := 0

namespace BufIrq

/-- the next step of the main loop; without a read in progress a new one begins -/
def main (B : Nat) (w : BufIrq) : BufIrq :=
  match w.pc with
  | none => { w with pc := some .check }
  | some .check => if w.b.nr ≤ 0 then { w with pc := none, under := w.under + 1 } else { w with pc := some .data }
  | some .data => { w with pc := some (.dec (w.b.data w.b.read)) }
  | some (.dec x) => { w with pc := some (.decW x w.b.nr) }
  | some (.decW x v) => { w with b := { w.b with nr := (v + 65535) % 65536 }, pc := some (.inc x) }
  | some (.inc x) =>
    { w with b := { w.b with read := if w.b.read < B - 1 then w.b.read + 1 else 0 }, pc := none, got := w.got ++ [x] }

/-- is the main loop between reading and writing `nr_bytes`? -/
def held (w : BufIrq) : Bool := match w.pc with | some (.decW _ _) => true | _ => false

/-- the loop li_can_slv_xload.c:599-612 over the bytes of a frame -/
def frame (B : Nat) (w : BufIrq) : List Byte → BufIrq
  | [] => w
  | x :: xs =>
    if (w.b.addByte B x).2 ≠ E.ok then w
    else frame B { w with b := (w.b.addByte B x).1, acc := w.acc ++ [x], hid := if w.held then w.hid + 1 else w.hid } xs

/-- `dload_remove_bytes` at the end of a block -/
def drop (B : Nat) (w : BufIrq) (n : Nat) : BufIrq :=
  if (w.b.removeBytes B n).2 ≠ E.ok then w
  else { w with b := (w.b.removeBytes B n).1, acc := w.acc.take (w.acc.length - n) }

/-- What may happen next. -/
inductive Evt
  /-- a step of the main loop -/
  | main
  /-- a data frame -/
  | frame (xs : List Byte)
  /-- the end of a block -/
  | drop (n : Nat)

def step (B : Nat) (w : BufIrq) : Evt → BufIrq
  | .main => w.main B
  | .frame xs => w.frame B xs
  | .drop n => w.drop B n

def run (B : Nat) (w : BufIrq) (es : List Evt) : BufIrq := es.foldl (step B) w

end BufIrq
end LiCan
