import Verif.Model.SwitchIrq
/-! # Changing a module's number, statement by statement

`lcsa_change_module_nr_and_identifiers` (li_can_slv_api.h:253, `li_can_slv_config_change_module_nr_and_identifiers`,
io_can_config.c:1781-1926) is called by the application in the main loop; process requests are answered in the receive interrupt from
the same tables.  Nothing disables the interrupts meanwhile.  Here a call is a sequence of steps, each of which reads or writes one
variable shared with the answering of process requests; a request may come between any two of them and is answered completely.
Simplifications: the definitions of the message objects (1848-1915), which use no variable the answering uses, are one step; the last
statement, `can_config_set_module_silent_awake` (1920), is not among the steps: it is the subject of `Model/SwitchIrq.lean`.  Number
changes by system messages run in the receive interrupt themselves, and are not interrupted by requests. -/
namespace LiCan
namespace Node

/-- One step of the main loop. -/
inductive Nmic
  /-- io_can_config.c:1795, `module_nr` -/
  | nr
  /-- io_can_main.c:445, `id[table_pos][i]` -/
  | id (i : Nat)
  /-- io_can_main.c:446, `dlc[table_pos][i]` -/
  | dlc (i : Nat)
  /-- io_can_main.c:449-450, `send_reg` is read and the bit of object `i` set -/
  | regRd (i : Nat)
  /-- the same, the result is written -/
  | regWr
  /-- io_can_main.c:451, `send_end` -/
  | last (i : Nat)
  /-- io_can_config.c:1848-1915, the message objects -/
  | hw
deriving DecidableEq, Repr

/-- The tables, the register the main loop holds a copy of `send_reg` in, and `err`. -/
structure Nsw where
  n   : Node
  tmp : BitVec 32 := 0
  err : Err := E.ok

/-- io_can_config.c:1848-1915: receive objects, then `finish` without its last statement. -/
def numberHw (env : Env) (n : Node) (tp nr : Nat) : Node × Err :=
  thenOk (renumRx env n tp nr) fun n =>
    let nrs := (List.range n.nrMod).map fun i => (n.rows i).nr
    let r := defineCtrl env n tp nr
    let r := thenOk r fun n => define env n 6 ⟨0x602, acceptMask nrs, 8, .asyncRx⟩
    let r := thenOk r fun n => define env n 2 ⟨0x002, acceptMask nrs, 8, .rx false⟩
    thenOk r fun n =>
      if env.sysObj2 then define env n 3 ⟨0x002, acceptMask nrs, 8, .rx false⟩ else (n, E.ok)

/-- Execution of one step for the row `tp` and the new number `nr`. -/
def nexec (env : Env) (tp nr : Nat) (m : Nmic) (s : Nsw) : Nsw :=
  match m with
  | .nr => { s with n := s.n.setRow tp fun r => { r with nr := nr } }
  | .id i => { s with n := { s.n with tx := { s.n.tx with id := upd s.n.tx.id tp (upd (s.n.tx.id tp) i (syncTxId nr i)) } } }
  | .dlc i => { s with n := { s.n with tx := { s.n.tx with dlc := upd s.n.tx.dlc tp (upd (s.n.tx.dlc tp) i ((s.n.rows tp).txDlc i)) } } }
  | .regRd i => { s with tmp := s.n.tx.reg ||| ((1#32 <<< i) <<< (4 * tp)) }
  | .regWr => { s with n := { s.n with tx := { s.n.tx with reg := s.tmp } } }
  | .last i => { s with n := { s.n with tx := { s.n.tx with last := pos tp i } } }
  | .hw => { s with n := (numberHw env s.n tp nr).1, err := (numberHw env s.n tp nr).2 }

/-- one transmit object: `can_main_sync_process_tx_data_cnfg`, io_can_main.c:427-454 -/
def nmics (i : Nat) : List Nmic := [.id i, .dlc i, .regRd i, .regWr, .last i]

/-- The steps of the call for a row with `t` transmit objects (at most four, so that none of them is refused, io_can_main.c:437). -/
def nprogram (t : Nat) : List Nmic := .nr :: ((List.range t).flatMap nmics ++ [.hw])

/-- A call in progress: the steps still to do. -/
structure Renum extends Nsw where
  todo : List Nmic

/-- What may happen next. -/
inductive NEv
  /-- the main loop does its next step -/
  | main
  /-- a process request: `can_main_sync_send_process_data` in the receive interrupt -/
  | request

/-- `none`: the interrupt does not return. -/
def Renum.step (env : Env) (tp nr : Nat) (w : Renum) : NEv → Option Renum
  | .main => match w.todo with
    | [] => some w
    | m :: l => some { toNsw := nexec env tp nr m w.toNsw, todo := l }
  | .request => (sendProcessData env w.n).map fun n' => { w with n := n' }

def Renum.run (env : Env) (tp nr : Nat) : Renum → List NEv → Option Renum
  | w, [] => some w
  | w, e :: es => (w.step env tp nr e).bind fun w' => Renum.run env tp nr w' es

/-- the beginning of a call -/
def Renum.start (n : Node) (tp : Nat) : Renum := { n := n, todo := nprogram (n.rows tp).txObj }

end Node
end LiCan
