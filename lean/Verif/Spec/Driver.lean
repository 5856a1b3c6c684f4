import Verif.Model.Basic
/-! # Specification of the transmit path: queues of frames, no indices -/
namespace LiCan.Spec

/-- What can be done with a bounded queue. -/
inductive FOp (α : Type)
  | put (x : α) | take | free | pending | isEmpty | isFull

/-- What is seen. -/
inductive FOut (α : Type)
  | accepted (b : Bool) | got (x : Option α) | num (n : Nat) | bool (b : Bool)
deriving DecidableEq

/-- One operation on a queue with room for `n`. -/
def fstep {α : Type} (n : Nat) (q : List α) : FOp α → List α × FOut α
  | .put x => if q.length < n then (q ++ [x], .accepted true) else (q, .accepted false)
  | .take => (q.tail, .got q.head?)
  | .free => (q, .num (n - q.length))
  | .pending => (q, .num q.length)
  | .isEmpty => (q, .bool q.isEmpty)
  | .isFull => (q, .bool (q.length == n))

/-- A history. -/
def frun {α : Type} (n : Nat) : List α → List (FOp α) → List α × List (FOut α)
  | q, [] => (q, [])
  | q, o :: os =>
    let r := fstep n q o
    let t := frun n r.1 os
    (t.1, r.2 :: t.2)

/-- A frame a classical CAN controller with standard identifiers can transmit. -/
def Legal (f : Frame) : Prop := f.id < 2048 ∧ f.dlc ≤ 8 ∧ f.data.length = f.dlc

instance (f : Frame) : Decidable (Legal f) := by unfold Legal; infer_instance

/-- What happens at the driver: a frame is handed over while the controller is busy or not; the controller has
finished a message. -/
inductive DOp
  | send (busy : Bool) (f : Frame)
  | next

/-- Frames on the bus (in order) and frames waiting. -/
structure Line where
  bus  : List Frame
  wait : List Frame
deriving DecidableEq

/-- One step, and whether a frame was taken. -/
def dstep (l : Line) : DOp → Line × Bool
  | .send false f => ({ l with bus := l.bus ++ [f] }, true)
  | .send true f => if l.wait.length < 16 then ({ l with wait := l.wait ++ [f] }, true) else (l, false)
  | .next => (match l.wait with
    | [] => l
    | f :: fs => ⟨l.bus ++ [f], fs⟩, true)

/-- A history; the frames taken, in order. -/
def drun : Line → List DOp → Line × List Bool
  | l, [] => (l, [])
  | l, o :: os =>
    let r := dstep l o
    let t := drun r.1 os
    (t.1, r.2 :: t.2)

/-- The frames handed over and taken, in order. -/
def taken : List DOp → List Bool → List Frame
  | .send _ f :: os, true :: bs => f :: taken os bs
  | _ :: os, _ :: bs => taken os bs
  | _, _ => []

/-- The controller counts as busy as long as frames wait. -/
def BusyWhileWaiting : Line → List DOp → Prop
  | _, [] => True
  | l, .send b f :: os => (l.wait ≠ [] → b = true) ∧ BusyWhileWaiting (dstep l (.send b f)).1 os
  | l, .next :: os => BusyWhileWaiting (dstep l .next).1 os

/-- The frames handed over with the answers, in order. -/
def asked : List DOp → List Bool → List (Frame × Bool)
  | .send _ f :: os, b :: bs => (f, b) :: asked os bs
  | _ :: os, _ :: bs => asked os bs
  | _, _ => []

end LiCan.Spec
