import Verif.Model.NodeRun
/-! # I/O configuration of the modules (`LI_CAN_SLV_MODULE_IO_CONFIG`, source/config/io_can_config.c)

The member `ioconfig` of the rows of `can_config_module_tab`: written by the copy of the template in
`can_config_set_module` (2182) and by `can_config_set_ioconfig` (1306-1321), read by `can_config_call_ioconfig_set`
(1329-1349) and `can_config_get_ioconfig` (1590-1603).  No other function names it; a type change copies the members
one by one and leaves it. -/
namespace LiCan

/-- `can_config_ioconfig_t`; `set`: which function of the application, if any -/
structure IoCfg where
  crc : Nat
  date : Nat
  set : Option Nat
deriving DecidableEq, Repr

/-- the table with the member `ioconfig` of each row -/
structure IoNode where
  node : Node
  io : Nat → IoCfg

/-- calls: an addition with the `ioconfig` of its template, `can_config_set_ioconfig`, any other call -/
inductive IoIn
  | add (tpl : Row) (c : IoCfg) (nr : Nat) (rx tx : Nat → Nat)
  | set (typ : List Byte) (crc date : Nat)
  | op (o : Op)

namespace IoNode

/-- `can_config_set_ioconfig` -/
def setIo (env : Env) (s : IoNode) (typ : List Byte) (crc date : Nat) : IoNode :=
  match s.node.findType env typ with
  | none => s
  | some i => { s with io := upd s.io i { s.io i with crc := crc, date := date } }

/-- `can_config_add_module`: the first free row takes the copy of the template -/
def add (env : Env) (s : IoNode) (tpl : Row) (c : IoCfg) (nr : Nat) (rx tx : Nat → Nat) : IoNode :=
  { node := (Node.step env s.node (.add tpl nr rx tx)).1
    io := match (List.range env.maxMod).find? fun i => (s.node.rows i).typ = [] with
          | none => s.io
          | some i => upd s.io i c }

def step (env : Env) (s : IoNode) : IoIn → IoNode
  | .add tpl c nr rx tx => s.add env tpl c nr rx tx
  | .set typ crc date => s.setIo env typ crc date
  | .op o => { s with node := (Node.step env s.node o).1 }

def run (env : Env) (s : IoNode) : List IoIn → IoNode
  | [] => s
  | i :: is => run env (s.step env i) is

/-- `can_config_call_ioconfig_set`: `none` if the type is not found, otherwise the function called, if any -/
def call (env : Env) (s : IoNode) (typ : List Byte) : Option (Option Nat) :=
  (s.node.findType env typ).map fun i => (s.io i).set

/-- `can_config_get_ioconfig`: `none` for a wrong table position -/
def get (env : Env) (s : IoNode) (tp : Nat) : Option IoCfg := if tp < env.maxMod then some (s.io tp) else none

end IoNode
end LiCan
