import Verif.Model.XLoad
/-! # Uploading a block while transfer messages arrive

The application sends a block with `li_can_slv_uload_data_from_buffer` (li_can_slv_xload.c:1021-1111) in its main loop; the messages of the master
are handled in the receive interrupt and use the same counters (`dload_buffer.bytes_cnt_of_block`, `nr_of_can_objs`) and the same module number.
Nothing disables the interrupts.  Here the function is a sequence of steps, each of which reads or writes one variable the interrupt uses; an
interrupt may come between any two of them and runs to completion.
Simplifications: whether the waiting time is over is arbitrary at every step (C58, C114 treat the clock); the handlers of the application and the
answers to the messages (C104, C105) are left out; a handler does not call the upload itself. -/
namespace LiCan

/-- What the upload gives to the driver. -/
inductive UlFrame
  /-- 1064, a data message of module `nr` -/
  | data (nr : Nat) (seg : List Byte)
  /-- 1222, the block end of module `nr`: high and low byte of the byte count and of the object count -/
  | fin (nr b1 b0 o1 o0 : Nat)
deriving DecidableEq, Repr

/-- Where the main loop is in the upload; what has been read before is an argument (`seg`: the bytes of the message filled so far). -/
inductive UlPc
  /-- li_can_slv_xload.c:1042 (or the end of the loop 1040), `bytes_cnt_of_block` is compared with the length -/
  | fill (seg : List Byte)
  /-- 1045, the byte is read -/
  | read (seg : List Byte)
  /-- 1046, the counter is read -/
  | inc (seg : List Byte)
  /-- 1046, the increased counter is written -/
  | incW (seg : List Byte) (v : Nat)
  /-- 1058-1064 -/
  | send (seg : List Byte)
  /-- 1081, `nr_of_can_objs` is read -/
  | cnt
  /-- 1081, the increased value is written -/
  | cntW (v : Nat)
  /-- 1084 -/
  | more
  /-- 1095, the module number is read -/
  | endNr
  /-- 1212 -/
  | end1 (nr : Nat)
  /-- 1213 -/
  | end2 (nr b1 : Nat)
  /-- 1214 -/
  | end3 (nr b1 b0 : Nat)
  /-- 1215, 1222 -/
  | end4 (nr b1 b0 o1 : Nat)
  /-- the function has returned -/
  | done
  /-- a byte outside the data of the caller was read (undefined behaviour) -/
  | oob
deriving DecidableEq, Repr

/-- The data of the caller, the variables of the transfer, the place in the upload and the frames given to the driver. -/
structure UlIrq where
  data  : List Byte
  bytes : Nat
  objs  : Nat
  nr    : Nat
  busy  : Bool
  pc    : UlPc := .fill []
  out   : List UlFrame := []

namespace UlIrq

/-- a call of the upload; line 1029 -/
def start (data : List Byte) (bytes nr : Nat) (busy : Bool) : UlIrq := ⟨data, bytes, 0, nr, busy, .fill [], []⟩

/-- the next step of the upload; `go`: the waiting time is over -/
def main (w : UlIrq) (go : Bool) : UlIrq :=
  match w.pc with
  | .fill seg =>
    if seg.length = 7 then { w with pc := .send seg }
    else if w.bytes < w.data.length then { w with pc := .read seg }
    else { w with pc := .fill (seg ++ [0]) }
  | .read seg =>
    match w.data[w.bytes]? with
    | some x => { w with pc := .inc (seg ++ [x]) }
    | none => { w with pc := .oob }
  | .inc seg => { w with pc := .incW seg w.bytes }
  | .incW seg v => { w with bytes := u16 (v + 1), pc := .fill seg }
  | .send seg => if go then { w with out := w.out ++ [.data w.nr seg], pc := .cnt } else w
  | .cnt => { w with pc := .cntW w.objs }
  | .cntW v => { w with objs := u16 (v + 1), pc := .more }
  | .more => { w with pc := if w.bytes < w.data.length then .fill [] else .endNr }
  | .endNr => { w with pc := .end1 w.nr }
  | .end1 nr => { w with pc := .end2 nr (w.bytes / 256) }
  | .end2 nr b1 => { w with pc := .end3 nr b1 (w.bytes % 256) }
  | .end3 nr b1 b0 => { w with pc := .end4 nr b1 b0 (w.objs / 256) }
  | .end4 nr b1 b0 o1 => { w with out := w.out ++ [.fin nr b1 b0 o1 (w.objs % 256)], pc := .done }
  | .done => w
  | .oob => w

/-- The messages of the master that use the variables of the upload. -/
inductive Msg
  /-- end acknowledge or termination (1149-1173) -/
  | stop
  /-- upload start request, first part, to module `nr` (950-965) -/
  | start1 (nr : Nat)
  /-- start request, second part, of an upload (977-1014) or a download (513-580) to module `nr`; refusing it ends the transfer -/
  | start2 (nr : Nat)
  /-- download data the buffer has room for (591-620) -/
  | data
  /-- the end of a download block the application accepted (631-698) -/
  | blockEnd
deriving DecidableEq, Repr

def msg (w : UlIrq) : Msg → UlIrq
  | .stop => { w with busy := false }
  | .start1 nr => { w with objs := 0, bytes := 0, nr := nr }
  | .start2 nr => if w.busy then { w with busy := false } else { w with busy := true, nr := nr }
  | .data => { w with objs := u16 (w.objs + 1), bytes := u16 (w.bytes + 7) }
  | .blockEnd => { w with bytes := 0, objs := 0 }

/-- What may happen next. -/
inductive Evt
  | main (go : Bool)
  | msg (m : Msg)
deriving DecidableEq, Repr

def step (w : UlIrq) : Evt → UlIrq
  | .main go => w.main go
  | .msg m => w.msg m

def run (w : UlIrq) (es : List Evt) : UlIrq := es.foldl step w

end UlIrq
end LiCan
