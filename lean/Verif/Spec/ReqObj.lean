import Verif.Model.NodeRun
/-!
# Specification: which module a number change concerns, and whether it was set up completely
-/
namespace LiCan.Spec

/-- the row whose number the call changes: the first one with the type and the number given; through
`can_config_change_module_nr` only if the application's voter agrees -/
def numberTarget (env : Env) (n : Node) : Op → Option Nat
  | .changeNr typ _ act => (List.range env.maxMod).find? fun i => (n.rows i).typ = typ ∧ (n.rows i).nr = act
  | .changeModuleNr tp nr =>
    match env.voter with
    | none => (List.range env.maxMod).find? fun i => (n.rows i).typ = (n.rows tp).typ ∧ (n.rows i).nr = (n.rows tp).nr
    | some v => match v (n.rows tp).typ nr (n.rows tp).nr with
      | .valid | .validButSilent =>
        (List.range env.maxMod).find? fun i => (n.rows i).typ = (n.rows tp).typ ∧ (n.rows i).nr = (n.rows tp).nr
      | _ => none
  | _ => none

/-- some receive object of the row has no message object -/
def Unplaced (n : Node) (i : Nat) : Prop := ∃ j < (n.rows i).rxObj, (n.rows i).rxMsgObj j = 0

/-- the call changes the number of a module with a receive object that has no message object -/
def Misplaces (env : Env) (n : Node) (o : Op) : Prop :=
  ∃ i, numberTarget env n o = some i ∧ (n.rows i).txObj ≤ 4 ∧ Unplaced n i

end LiCan.Spec
