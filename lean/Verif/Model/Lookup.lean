import Verif.Model.NodeRun
/-!
# Functions by which the application asks for its modules

Models the getters of source/config/io_can_config.c.
-/
namespace LiCan
namespace Node

/-- `can_config_get_module_nr_by_type`, io_can_config.c:1755-1770, with `LI_CAN_SLV_CONFIG_DEF_MOD_NR1` 125
(li_can_slv_config_defines.h:156). -/
def nrByType (env : Env) (n : Node) (typ : List Byte) : Nat × Err :=
  match n.findType env typ with
  | none => (125, E.typeNotFound)
  | some tp => ((n.rows tp).nr, E.ok)

/-- `can_config_get_module_nr`, io_can_config.c:1539-1550; `none`: nothing is written. -/
def nrAt (env : Env) (n : Node) (tp : Nat) : Option Nat × Err :=
  if tp < env.maxMod then (some (n.rows tp).nr, E.ok) else (none, E.wrongTablePos)

/-- `can_config_get_module_nr_main`, io_can_config.c:1554-1557. -/
def nrMain (n : Node) : Nat := (n.rows 0).nr

/-- `can_config_get_module_silent_awake`, io_can_config.c:1626-1637; `none`: nothing is written. -/
def stateAt (env : Env) (n : Node) (tp : Nat) : Option Nat × Err :=
  if tp < env.maxMod then (some (n.silent tp), E.ok) else (none, E.wrongTablePos)

/-- `can_config_get_nr_of_modules`, io_can_config.c:1645-1648. -/
def count (n : Node) : Nat := n.nrMod

end Node
end LiCan
