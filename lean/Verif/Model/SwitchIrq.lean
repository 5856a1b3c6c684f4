import Verif.Model.Node
/-! # Switching a module on or off, statement by statement

`can_config_set_module_silent_awake` (io_can_config.c:1715-1745) is called by the main loop (li_can_slv_api.c, `lcsa_set_module_silent`,
`lcsa_set_module_awake`); process requests and system messages are handled in the receive interrupt and use the same tables.  Nothing
disables the interrupts meanwhile.  Here a call is a sequence of steps, each of which reads or writes one variable shared with the
interrupt; an interrupt may come between any two of them and runs to completion.
Simplifications: the conversion called in the last loop of `can_config_sync_off` is one step; type changes by an interrupt, which would
change the number of iterations of a running loop, are not among the interrupts considered. -/
namespace LiCan
namespace Node

/-- One step of the main loop. -/
inductive Mic
  /-- io_can_config.c:1719, `can_config_module_silent[table_pos]` -/
  | flag
  /-- io_can_config.c:1720-1723, the callback -/
  | call
  /-- io_can_config.c:1217 and 1266, `tx_obj_sync` -/
  | txCount
  /-- io_can_main.c:467-468 and 482-483, `send_reg` is read and the bit of object `i` changed -/
  | regRd (i : Nat)
  /-- the same, the result is written -/
  | regWr
  /-- io_can_config.c:1221 and 1270, `tx_dlc_sync[i]` -/
  | txDlc (i : Nat)
  /-- io_can_config.c:1222 and 1271, `tx_main_sync[i]` -/
  | txConv (i : Nat)
  /-- io_can_config.c:1234 and 1283, `rx_obj_sync` -/
  | rxCount
  /-- io_can_config.c:1237 and 1286, `rx_dlc_sync[i]` -/
  | rxDlc (i : Nat)
  /-- io_can_config.c:1238 and 1287, `rx_main_sync[i]` -/
  | rxConv (i : Nat)
  /-- io_can_config.c:1249 -/
  | clear (i : Nat)
deriving DecidableEq, Repr

/-- The tables and the register the main loop holds a copy of `send_reg` in. -/
structure Sw where
  n   : Node
  tmp : BitVec 32 := 0

/-- Execution of one step for the row `tp`; `on`: `can_config_sync_on`, otherwise `can_config_sync_off`. -/
def exec (env : Env) (on : Bool) (tp : Nat) (m : Mic) (s : Sw) : Sw :=
  match m with
  | .flag => { s with n := { s.n with silent := upd s.n.silent tp (if on then 1 else 0) } }
  | .call => { s with n := { s.n with log := .silentCb tp (s.n.rows tp).nr (if on then 1 else 0) :: s.n.log } }
  | .txCount => { s with n := s.n.setRow tp fun r => { r with txObjSync := if on then r.txObj else 0 } }
  | .regRd i => { s with tmp :=
      if on then s.n.tx.reg ||| ((1#32 <<< i) <<< (4 * tp)) else s.n.tx.reg &&& ~~~ ((1#32 <<< i) <<< (4 * tp)) }
  | .regWr => { s with n := { s.n with tx := { s.n.tx with reg := s.tmp } } }
  | .txDlc i => { s with n := s.n.setRow tp fun r => { r with txDlcSync := upd r.txDlcSync i (if on then r.txDlc i else 0) } }
  | .txConv i => { s with n := s.n.setRow tp fun r => { r with txMainSync := upd r.txMainSync i (if on then r.txMain i else .dummy) } }
  | .rxCount => { s with n := s.n.setRow tp fun r => { r with rxObjSync := if on then r.rxObj else 0 } }
  | .rxDlc i => { s with n := s.n.setRow tp fun r => { r with rxDlcSync := upd r.rxDlcSync i (if on then r.rxDlc i else 0) } }
  | .rxConv i => { s with n := s.n.setRow tp fun r => { r with rxMainSync := upd r.rxMainSync i (if on then r.rxMain i else .dummy) } }
  | .clear i => { s with n := (s.n.callRx env ((s.n.rows tp).rxMain i) zeros8 ((s.n.rows tp).rx i) ((s.n.rows tp).rxDlc i)).1 }

/-- one transmit object -/
def txMics (i : Nat) : List Mic := [.regRd i, .regWr, .txDlc i, .txConv i]

/-- one receive object -/
def rxMics (i : Nat) : List Mic := [.rxDlc i, .rxConv i]

/-- The steps of `can_config_set_module_silent_awake` for a row with `t` transmit and `r` receive objects. -/
def program (on : Bool) (t r : Nat) : List Mic :=
  [.flag, .call, .txCount] ++ (List.range t).flatMap txMics ++ [.rxCount] ++ (List.range r).flatMap rxMics ++
  if on then [] else (List.range r).map .clear

/-- A call in progress: the steps still to do. -/
structure Switch extends Sw where
  todo : List Mic

/-- What may happen next. -/
inductive SwEv
  /-- the main loop does its next step -/
  | main
  /-- a process request: `can_main_sync_send_process_data` in the receive interrupt -/
  | request
  /-- a system message changes the number of the module in row `tp`: `can_config_change_module_nr` in the receive interrupt -/
  | number (tp nr : Nat)

/-- `none`: the interrupt does not return. -/
def Switch.step (env : Env) (on : Bool) (tp : Nat) (w : Switch) : SwEv → Option Switch
  | .main => match w.todo with
    | [] => some w
    | m :: l => some { toSw := exec env on tp m w.toSw, todo := l }
  | .request => (sendProcessData env w.n).map fun n' => { w with n := n' }
  | .number k nr => some { w with n := (changeModuleNr env w.n k nr).1 }

def Switch.run (env : Env) (on : Bool) (tp : Nat) : Switch → List SwEv → Option Switch
  | w, [] => some w
  | w, e :: es => (w.step env on tp e).bind fun w' => Switch.run env on tp w' es

/-- the beginning of a call -/
def Switch.start (n : Node) (on : Bool) (tp : Nat) : Switch :=
  { n := n, todo := program on (n.rows tp).txObj (n.rows tp).rxObj }

end Node
end LiCan
