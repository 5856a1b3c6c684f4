import Verif.Model.StackRun
/-!
# Specification vocabulary for asynchronous messages and transfers

What is on the wire and what the application sees; nothing here refers to the functions of the
transfer, tunnel or queue models.
-/
namespace LiCan.Spec

/-- everything sent and every call of the application, latest first -/
abbrev logOf (s : Stack) : List Ev := s.slv.node.log

/-- module `nr` is in the table, in row `tp`, and not silent -/
def Addressed (env : AEnv) (s : Stack) (nr tp : Nat) : Prop :=
  (List.range env.maxMod).find? (fun i => decide ((s.slv.node.rows i).nr = nr)) = some tp ∧ s.slv.node.silent tp ≠ 0

instance (env : AEnv) (s : Stack) (nr tp : Nat) : Decidable (Addressed env s nr tp) := by
  unfold Addressed; infer_instance

/-- asynchronous control messages to module `nr`, one after the other -/
def recv (env : AEnv) (nr : Nat) : Stack → List (List Byte) → Stack
  | s, [] => s
  | s, m :: ms => recv env nr (s.asyncRx env nr m).1 ms

/-- big endian digits of `v` to base `b` -/
def digits (b : Nat) : Nat → Nat → List Nat
  | 0, _ => []
  | n + 1, v => v / b ^ n % b :: digits b n v

/-- big endian bytes -/
def bytes (n v : Nat) : List Byte := (digits 256 n v).map UInt8.ofNat

/-- the number with the given big endian digits -/
def value (b : Nat) (l : List Nat) : Nat := l.foldl (fun a d => b * a + d) 0

/-- A short component name on the wire: eight characters of six bits each, packed into six bytes, most
significant bit first. -/
def packName (cs : List Nat) : List Byte := bytes 6 (value 64 cs)

/-- the same name as text: character codes start at 0x20 -/
def nameText (cs : List Nat) : List Byte := cs.map fun c => UInt8.ofNat (0x20 + c)

/-- The termination message for error number `e`: group CAN bus (7) with subgroup, 24 bit code. -/
def termMsg (e : Nat) : List Byte :=
  [0x1C, UInt8.ofNat (0x70 + e / 4096), 0, UInt8.ofNat (e % 4096 / 256), UInt8.ofNat (e % 256), 0, 0,
   UInt8.ofNat (0x70 + e / 4096)]

/-- the control frame of module `nr` -/
def ctrlFrame (nr : Nat) (d : List Byte) : Frame := ⟨0x601 + 4 * (nr - 1), 8, d⟩

/-- no transfer in progress, no component selected -/
def Idle (s : Stack) : Prop := s.x.busy = false ∧ s.x.comp.name = [0, 0, 0, 0, 0, 0, 0, 0]

instance (s : Stack) : Decidable (Idle s) := by unfold Idle; infer_instance

end LiCan.Spec
