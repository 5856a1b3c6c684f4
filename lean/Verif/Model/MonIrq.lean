import Verif.Model.Mon
/-! # A process request on both controllers, one interrupt inside the other

A process request reaches the main and the monitor controller of a device (LI_CAN_SLV_MON) at the same time.  Both receive interrupts
check the process image (`li_can_slv_sync_check_process_image`, io_can_sync.c:959-1060) and note the request
(`can_sync_rx_process_main`, 459-475, `can_sync_rx_process_mon`, 668-683); nothing keeps one from interrupting the other.  Here the
handler of one controller (the outer one) is cut into pieces, and the handler of the other runs between two of them.

Simplifications
* Pieces: each of the conditions of the check, the check of one module, the clearing of the image, all that follows the check.  What
  can happen when the interrupt comes inside one of the last three is not considered.
* The clock does not advance during the two handlers.
* Only the handling of the request itself, no other frames. -/
namespace LiCan
namespace Mon
open Node Slave

/-- The controller whose handler is interrupted. -/
inductive Ctl | main | mon
deriving DecidableEq, Repr

/-- Place in the outer handler: what is done next. -/
inductive Cpc
  /-- main controller only: `li_can_slv_sync_process_request_rx`, io_can_sync_handler.c:182 -/
  | req
  /-- io_can_sync.c:967, first operand -/
  | mainFlag
  /-- io_can_sync.c:967, second operand -/
  | monFlag
  /-- 978 -/
  | mainDlc
  /-- 983 -/
  | monDlc
  /-- 990 -/
  | mainCnt
  /-- 999 -/
  | monCnt
  /-- 1010-1048: module `i` is next, or, after the last one, the end of the loop; `ok`: `process_image_valid` -/
  | module (i : Nat) (ok : Bool)
  /-- `clear_exit`, 1057-1059 -/
  | clear
  /-- after the check: io_can_sync_handler.c:185-210 for the main controller, 407 for the monitor -/
  | after
deriving DecidableEq, Repr

structure Nest where
  d  : Mon
  /-- `none`: the handler has returned -/
  pc : Option Cpc

/-- What the handler of the main controller does after the check, io_can_sync_handler.c:185-210; `none`: the transmission loop does not
return. -/
def afterMain (me : MonEnv) (d : Mon) (now dlc : Nat) : Option Mon :=
  match d.s.node.sendProcessData me.toEnv with
  | none => none
  | some n =>
    let m := { d.m with mainTx := capture d.s.node d.s.node.tx.reg d.m.mainTx }
    let s := rxProcessMain me.toEnv { d.s with node := n } now dlc
    if me.sysErr ∧ 0 < s.node.errq.getCount then
      some { s := { s with node := (sendOneError me.toEnv s.node).1 }, m := m }
    else some { s := s, m := m }

/-- One piece of the outer handler. -/
def Nest.step (me : MonEnv) (c : Ctl) (now dlc : Nat) (w : Nest) : Option Nest :=
  let d := w.d
  match w.pc with
  | none => some w
  | some .req => some ⟨{ d with s := reqRx d.s }, some .mainFlag⟩
  | some .mainFlag => some ⟨d, some (if d.s.sync.prFlag = 0xFFFF then .monFlag else .after)⟩
  | some .monFlag => some ⟨d, some (if d.m.prFlag = 0xFFFF then .mainDlc else .after)⟩
  | some .mainDlc => some ⟨d, some (if 1 < d.s.sync.prDlc then .clear else .monDlc)⟩
  | some .monDlc => some ⟨d, some (if 1 < d.m.prDlc then .clear else .mainCnt)⟩
  | some .mainCnt =>
    if d.s.sync.prCnt ≠ 1 then some ⟨{ d with s := { d.s with sync := { d.s.sync with errPr := u16 (d.s.sync.errPr + 1) } } }, some .clear⟩
    else some ⟨d, some .monCnt⟩
  | some .monCnt =>
    if d.m.prCnt ≠ 1 then some ⟨{ d with m := { d.m with errPr := u16 (d.m.errPr + 1) } }, some .clear⟩
    else some ⟨d, some (.module 0 true)⟩
  | some (.module i ok) =>
    if i < d.s.node.nrMod then some ⟨(checkStep now (d, ok) i).1, some (.module (i + 1) (checkStep now (d, ok) i).2)⟩
    else if ok then
      some ⟨{ d with s := { d.s with sync := { d.s.sync with timeValid := now } } }.callOpt d.s.sync.allCb, some .clear⟩
    else some ⟨d, some .clear⟩
  | some .clear => some ⟨clearImage me d, some .after⟩
  | some .after => match c with
    | .main => (afterMain me d now dlc).map fun d => ⟨d, none⟩
    | .mon => some ⟨rxProcessMon d now dlc, none⟩

/-- `k` pieces -/
def Nest.go (me : MonEnv) (c : Ctl) (now dlc : Nat) : Nat → Nest → Option Nest
  | 0, w => some w
  | k + 1, w => (w.step me c now dlc).bind fun w' => Nest.go me c now dlc k w'

/-- The handler of a controller as a whole: io_can_sync_handler.c:174-210 and 398-409. -/
def request (me : MonEnv) (c : Ctl) (now dlc : Nat) (d : Mon) : Option Mon :=
  match c with
  | .main => processRequest me d now dlc
  | .mon => some (rxProcessMon (checkImage me d now) now dlc)

/-- the other controller -/
def Ctl.other : Ctl → Ctl
  | .main => .mon
  | .mon => .main

/-- the beginning of a handler -/
def Nest.start (c : Ctl) (d : Mon) : Nest :=
  ⟨d, some (match c with | .main => .req | .mon => .mainFlag)⟩

/-- The handler of the other controller runs now. -/
def Nest.irq (me : MonEnv) (c : Ctl) (now dlc : Nat) (w : Nest) : Option Nest :=
  (request me c.other now dlc w.d).map fun d => { w with d := d }

end Mon
end LiCan
