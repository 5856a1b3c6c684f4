import Verif.Model.StackRun
/-! # The substitute module (`LI_CAN_SLV_UNKNOWN_MODULE`)

With this build option `lcsa_start` registers a module of type `UKWN` if the application has registered none. -/
namespace LiCan

namespace Node

/-- `can_config_ukwn_module`, io_can_config.c:659-706: no objects in either direction, all pointers `NULL`. -/
def ukwnTpl : Row := { typ := [0x55, 0x4B, 0x57, 0x4E], nr := 125 }

/-- `can_config_add_ukwn_module`, io_can_config.c:1036-1051 (`CAN_CONFIG_MIN_MODULE_NR` 2, `CAN_CONFIG_MAX_MODULE_NR` 124); the only
caller passes the type `UKWN`, so the copy of the type changes nothing. -/
def addUkwn (env : Env) (n : Node) (nr : Nat) : Node × Err :=
  let nr := if 124 < nr ∨ nr < 2 then 125 else nr
  addModule env n { ukwnTpl with nr := nr } nr (fun _ => 0) (fun _ => 0)

/-- `lcsa_start`, li_can_slv_api.c:108-116, with `can_config_get_nr_of_modules` (io_can_config.c:1645-1648) and
`can_config_get_module_nr_main` (1554-1557): the number of row 0. -/
def startNode (env : Env) (n : Node) : Node :=
  if n.nrMod = 0 then (addUkwn env n (n.rows 0).nr).1 else n

end Node

namespace Stack

/-- `lcsa_start` with the option: li_can_slv_api.c:108-116, then the rest of the function. -/
def startU (env : AEnv) (s : Stack) (now : Nat) : Stack × Err :=
  ({ s with slv := { s.slv with node := s.slv.node.startNode env.toEnv } } : Stack).start env now

/-- One input, with the option. -/
def stepU (env : AEnv) (s : Stack) : SIn → Option Stack
  | .start now => some (s.startU env now).1
  | i => s.step env i

/-- A history, with the option. -/
def runU (env : AEnv) : Stack → List SIn → Option Stack
  | s, [] => some s
  | s, i :: is => (stepU env s i).bind fun s' => runU env s' is

end Stack
end LiCan
