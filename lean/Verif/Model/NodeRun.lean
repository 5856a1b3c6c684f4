import Verif.Model.Node
/-! # Histories of API calls, commands and process requests on the module table -/
namespace LiCan

/-- A call from the application or a command from the master acting on the module table. -/
inductive Op
  /-- `lcsa_add_module(template, number, rx objects, tx objects)`, li_can_slv_api.c:290-293 -/
  | add (tpl : Row) (nr : Nat) (rx tx : Nat → Nat)
  /-- SILENT (0) / AWAKE (1) for a row: system commands 0x21/0x22, io_can_sys.c:806-848 -/
  | silentAwake (tp st : Nat)
  /-- `li_can_slv_config_set_module_silent_awake_from_type_and_nr` -/
  | silentAwakeBy (typ : List Byte) (nr st : Nat)
  /-- `lcsa_set_module_active` -/
  | setActive (typ : List Byte)
  /-- `lcsa_set_module_critical` -/
  | setCritical (typ : List Byte)
  /-- the synchronous reply to a process request -/
  | process
  /-- `li_can_slv_config_change_module_nr_and_identifiers` -/
  | changeNr (typ : List Byte) (nr act : Nat)
  /-- `can_config_change_module_nr` for a row (system command 0x20) -/
  | changeModuleNr (tp nr : Nat)
  /-- `can_config_change_module_type_add` -/
  | changeTypeAdd (typ : List Byte) (tpl : Row) (rx tx : Nat → Nat) (hasCb : Bool)
  /-- `can_config_change_module_type` (system command 0x31) -/
  | changeType (tp : Nat) (typ : List Byte)

namespace Node

/-- One call.  A process request that never returns (see C10) leaves the state as it is. -/
def step (env : Env) (n : Node) : Op → Node × Err
  | .add tpl nr rx tx => addModule env n tpl nr rx tx
  | .silentAwake tp st => setSilentAwake env n tp st
  | .silentAwakeBy typ nr st => setSilentAwakeBy env n typ nr st
  | .setActive typ => setActive env n typ
  | .setCritical typ => setCritical env n typ
  | .process => ((sendProcessData env n).getD n, E.ok)
  | .changeNr typ nr act => changeNr env n typ nr act
  | .changeModuleNr tp nr => changeModuleNr env n tp nr
  | .changeTypeAdd typ tpl rx tx cb => changeTypeAdd env n typ tpl rx tx cb
  | .changeType tp typ => changeType env n tp typ

/-- A history of calls. -/
def run (env : Env) (n : Node) : List Op → Node
  | [] => n
  | o :: os => run env (step env n o).1 os

/-- The error `can_config_set_module` ends with inside `can_config_add_module`; the caller only
puts it into the error queue (io_can_config.c:990-1018). OK if no row is free. -/
def regErr (env : Env) (n : Node) (tpl : Row) (nr : Nat) (rx tx : Nat → Nat) : Err :=
  match (List.range env.maxMod).find? fun i => (n.rows i).typ = [] with
  | none => E.ok
  | some i =>
    if (List.range i).any fun j => (n.rows j).nr = nr then (setModule env n i tpl (125 + i) rx tx).2
    else (setModule env n i tpl nr rx tx).2

end Node
end LiCan
