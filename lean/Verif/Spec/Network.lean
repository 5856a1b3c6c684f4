import Verif.Model.StackRun
/-! # Specification: who may use which identifier on the bus -/
namespace LiCan.Spec

/-- identifiers of the messages a slave with a module number in `N` may send: system answers, process data, control
messages, data -/
def FromSlave (N : Nat → Prop) (id : Nat) : Prop := ∃ n, N n ∧
  (id = 0x003 + 4 * (n - 1) ∨ (∃ j < 4, id = 0x400 + 4 * (n - 1) + j) ∨ id = 0x601 + 4 * (n - 1) ∨ id = 0x603 + 4 * (n - 1))

/-- identifiers of the messages to slaves: process request, system messages, process data, control messages, data -/
def ToSlave (id : Nat) : Prop := id = 0x001 ∨ ∃ n, (1 ≤ n ∧ n ≤ 128) ∧
  (id = 0x002 + 4 * (n - 1) ∨ (∃ j < 4, id = 0x200 + 4 * (n - 1) + j) ∨ id = 0x600 + 4 * (n - 1) ∨ id = 0x602 + 4 * (n - 1))

/-- module numbers as they may be used on a bus -/
def Numbers (N : Nat → Prop) : Prop := ∀ n, N n → 1 ≤ n ∧ n ≤ 128

end LiCan.Spec
