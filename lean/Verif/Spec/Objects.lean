import Verif.Spec.Restart
/-!
# Specification: which message object belongs to which module

After `lcsa_init` some message objects of the controller are reserved.  Each module registered takes the next free
ones for its receive objects and one more for its control messages.
-/
namespace LiCan.Spec

/-- message objects which are free after an initialization -/
def freeObjs (nObj : Nat) (sys2 : Bool) : List Nat :=
  (List.range nObj).filter fun o => !(o == 0 || o == 2 || (o == 3 && sys2) || o == 6 || o == 10)

/-- message objects needed for modules with these numbers of receive objects -/
def objsNeeded (cs : List Nat) : Nat := (cs.map (· + 1)).sum

/-- receive objects and the modules (rows) they belong to, for modules registered from row `tp` on, with these numbers of
receive objects, out of the free objects -/
def layout : List Nat → Nat → List Nat → List (Nat × Nat)
  | _, _, [] => []
  | free, tp, c :: cs => ((free.take c).map fun o => (o, tp)) ++ layout (free.drop (c + 1)) (tp + 1) cs

/-- the module an object belongs to: the first entry counts -/
def rowOf (l : List (Nat × Nat)) (o : Nat) : Option Nat := (l.find? fun s => s.1 == o).map (·.2)

/-- numbers of receive objects of the modules registered by the calls -/
def rxCounts (ops : List Op) : List Nat :=
  ops.filterMap fun | .add tpl _ _ _ => some tpl.rxObj | _ => none

end LiCan.Spec
