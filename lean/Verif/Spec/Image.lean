import Verif.Model.SlaveRun
/-!
# Specification: the process image

What a user has to keep in mind to know whether a module's process data is reported valid: the length of the last
process request, how often each receive object has arrived since its count was last started anew, and the last verdicts.
-/
namespace LiCan.Spec

structure Image where
  /-- length of the last process request -/
  asked : Option Nat := none
  /-- arrivals of object `j` of module `i` -/
  heard : Nat → Nat → Nat := fun _ _ => 0
  /-- the verdicts -/
  valid : Nat → Bool := fun _ => false

/-- Is the frame one for object `j` of module `i`?  The identifier is the one of the object, and the length (if lengths are checked) the one
expected at the moment: the configured one, or 0 for a module that is switched off. -/
def Image.isFor (chk : Bool) (n : Node) (dlc id i j : Nat) : Prop :=
  (n.rows i).typ ≠ [] ∧ j < (n.rows i).rxObj ∧ id = 0x200 + 4 * ((n.rows i).nr - 1) + j ∧ (chk = true → dlc = (n.rows i).rxDlcSync j)

instance (chk : Bool) (n : Node) (dlc id i j : Nat) : Decidable (Image.isFor chk n dlc id i j) := by unfold Image.isFor; infer_instance

/-- all receive objects that are switched on have arrived once (the count has 16 bits) -/
def Image.complete (im : Image) (n : Node) (i : Nat) : Bool :=
  (List.range (n.rows i).rxObjSync).all fun j => im.heard i j % 65536 == 1

/-- the modules are judged at this request: another request came before, of at most one byte -/
def Image.judges (im : Image) : Bool := im.asked.any fun l => l ≤ 1

/-- a process request: the verdicts, and a new count for the receive objects that are switched on -/
def Image.request (im : Image) (maxMod : Nat) (n : Node) (dlc : Nat) : Image where
  asked := some dlc
  heard i j := if im.asked.isSome ∧ i < maxMod ∧ j < (n.rows i).rxObjSync then 0 else im.heard i j
  valid i := if im.judges ∧ i < n.nrMod then im.complete n i else im.valid i

/-- any other frame -/
def Image.frame (im : Image) (chk : Bool) (n : Node) (dlc id : Nat) : Image :=
  { im with heard := fun i j => if Image.isFor chk n dlc id i j then im.heard i j + 1 else im.heard i j }

/-- one input; message object 0 takes the process requests -/
def Image.next (env : Env) (n : Node) (im : Image) : In → Image
  | .frame _ obj dlc id _ => if obj = 0 then im.request env.maxMod n dlc else im.frame env.chk n dlc id
  | _ => im

end LiCan.Spec
