import Verif.Model.ErrQueue
/-!
# Specification of the error queue: a plain FIFO

State: the list of stored errors.  A report is refused if fewer than two places are
left; a report which leaves no place for another one also stores a "queue full" marker.
-/
namespace LiCan.Spec

/-- What a user of the error interface can do. -/
inductive ErrOp
  | report (msgCode : MsgCode) (addInfo : BitVec 8) (prio : Prio) (group subgroup : BitVec 8)
      (nr : Nat)
  | get

/-- What the user sees: the return code and (for `get`) the entry. -/
abbrev ErrOut := Err × Option ErrEntry

/-- Abstract queue: stored errors (oldest first), whether anything was ever reported,
and how many errors were retrieved so far. -/
structure Fifo where
  items   : List ErrEntry := []
  started : Bool := false
  popped  : Nat := 0

/-- The marker entry that announces lost errors. -/
def fullMarker (nr : Nat) : ErrEntry :=
  { msgCode := 0x7500006F#32, prio := 13, moduleNr := nr, addInfo := 0, group := 0x75#8 }

/-- The entry a report asks to store. -/
def entryOf (msgCode : MsgCode) (addInfo : BitVec 8) (prio : Prio) (group subgroup : BitVec 8)
    (nr : Nat) : ErrEntry :=
  { msgCode := msgCode, prio := prio, moduleNr := nr, addInfo := addInfo
    group := subgroup + (group <<< 4) }

/-- One operation on a FIFO with `sz` places. -/
def Fifo.step (sz : Nat) (f : Fifo) : ErrOp → Fifo × ErrOut
  | .report mc ai p g sg nr =>
    if p = 15 then ({ f with started := true }, (0x0000#16, none))     -- FATAL is never stored
    else if sz < f.items.length + 2 then ({ f with started := true }, (0x506F#16, none))
    else if sz = f.items.length + 2 then
      ({ f with items := f.items ++ [entryOf mc ai p g sg nr, fullMarker nr], started := true },
       (0x506F#16, none))
    else
      ({ f with items := f.items ++ [entryOf mc ai p g sg nr], started := true }, (0x0000#16, none))
  | .get =>
    if f.started = false then (f, (0x5070#16, none))
    else match f.items with
      | [] => (f, (0x5071#16, none))
      | e :: es => ({ f with items := es, popped := f.popped + 1 }, (0x0000#16, some e))

/-- Run a history. -/
def Fifo.run (sz : Nat) : Fifo → List ErrOp → Fifo × List ErrOut
  | f, [] => (f, [])
  | f, op :: ops =>
    let (f', o) := f.step sz op
    let (f'', os) := Fifo.run sz f' ops
    (f'', o :: os)

end LiCan.Spec

namespace LiCan.Spec

/-- Is the report stored by a FIFO with `sz` places? -/
def ErrOp.accepted (sz : Nat) (f : Fifo) : ErrOp → Bool
  | .report _ _ p _ _ _ => p ≠ 15 ∧ f.items.length + 2 ≤ sz
  | .get => false

/-- Does the report take the last two places (its own and the marker's)? -/
def ErrOp.takesLast (sz : Nat) (f : Fifo) : ErrOp → Bool
  | .report _ _ p _ _ _ => p ≠ 15 ∧ f.items.length + 2 = sz
  | .get => false

/-- The histories that are dangerous for the C code: the queue is filled up completely
at a moment when the number of errors retrieved so far is a multiple of the queue size
(`armed`), and later - before anything else was stored - another report is accepted. -/
def overruns (sz : Nat) : Fifo → Bool → List ErrOp → Bool
  | _, _, [] => false
  | f, armed, op :: ops =>
    (armed && op.accepted sz f) ||
    overruns sz (f.step sz op).1
      (if op.takesLast sz f then f.popped % sz == 0
       else if op.accepted sz f then false else armed) ops

/-- No report of the history fills the queue up. -/
def neverFull (sz : Nat) : Fifo → List ErrOp → Prop
  | _, [] => True
  | f, op :: ops => op.takesLast sz f = false ∧ neverFull sz (f.step sz op).1 ops

end LiCan.Spec
