import Verif.Model.Node
/-!
# Copying a transmit object under interrupts

`can_sync_tx_data_main`, source/sync/io_can_sync.c:599-656, step by step: disable interrupts (631),
copy four 16-bit words (632-635), enable interrupts (636), convert the copy (641).  A word copy is split
into its two bytes here (more interleavings than on the target).  An interrupt may replace the
whole application memory; while interrupts are disabled it is held back.
-/
namespace LiCan

/-- State: interrupts enabled, application memory, local copy, program counter (0: before line 631,
1..8: copying byte 0..7, 9: before line 636, 10: before line 641). -/
structure CopySt where
  irq : Bool
  mem : Nat → Byte
  tmp : Nat → Byte
  pc  : Nat

/-- One step of the processor or of an interrupt service routine. -/
inductive CopyAct
  | cpu
  | isr (mem : Nat → Byte)

namespace CopySt

/-- One step for an object at address `p`, io_can_sync.c:631-636. -/
def step (p : Nat) (s : CopySt) : CopyAct → CopySt
  | .isr m => if s.irq then { s with mem := m } else s
  | .cpu =>
    if s.pc = 0 then { s with irq := false, pc := 1 }
    else if s.pc < 9 then { s with tmp := upd s.tmp (s.pc - 1) (s.mem (p + (s.pc - 1))), pc := s.pc + 1 }
    else if s.pc = 9 then { s with irq := true, pc := 10 }
    else s

/-- An interleaving. -/
def run (p : Nat) : CopySt → List CopyAct → CopySt
  | s, [] => s
  | s, a :: as => run p (step p s a) as

/-- the local copy handed to the conversion function -/
def copy (s : CopySt) : List Byte := (List.range 8).map s.tmp

/-- the eight bytes at address `p` -/
def object (s : CopySt) (p : Nat) : List Byte := (List.range 8).map fun k => s.mem (p + k)

end CopySt
end LiCan
