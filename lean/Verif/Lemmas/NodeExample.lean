import Verif.Lemmas.NodeHist
/-! # A concrete configuration for the examples and counterexamples -/
namespace LiCan.Node
open Spec

/-- three modules, 32 message objects, conversions copy their argument, the driver never fails -/
def exEnv : Env :=
  { maxMod := 3, nObj := 32, sysObj2 := true, sysErr := true, qSize := 8
    hwOk := fun _ => true, sendOk := fun _ => true
    rxConv := fun _ can dlc _ => (can.take dlc, E.ok)
    txConv := fun _ app dlc buf => (app.take dlc ++ buf.drop dlc, E.ok)
    garbage := [0xAA, 0xAA, 0xAA, 0xAA, 0xAA, 0xAA, 0xAA, 0xAA]
    voter := none }

/-- only eleven message objects: five are reserved, six left -/
def exSmall : Env := { exEnv with nObj := 11 }

/-- a module type `MDx` with `r` receive and `t` transmit objects of two bytes -/
def exTpl (x : Byte) (r t : Nat) : Row :=
  { typ := [77, 68, x], rxObj := r, txObj := t, rxDlc := fun _ => 2, txDlc := fun _ => 2
    rxMain := fun _ => .app 0, txMain := fun _ => .app 0 }

/-- application memory: object `p` contains `p, p+1` -/
def exMem : Nat → List Byte := fun p => [UInt8.ofNat p, UInt8.ofNat (p + 1)]

/-- two modules, numbers 5 and 9 -/
def exOps : List Op :=
  [.add (exTpl 65 2 2) 5 (fun j => 100 + j) (fun j => 110 + j),
   .add (exTpl 66 1 3) 9 (fun j => 120 + j) (fun j => 130 + j)]

def exInit (env : Env) : Node := (Node.init env (boot exMem)).1

theorem exEnv_ok : EnvOk exEnv := ⟨by decide, by decide, by decide⟩
theorem exSmall_ok : EnvOk exSmall := ⟨by decide, by decide, by decide⟩

theorem exReach (ops : List Op) (h : ∀ o ∈ ops, Basic o) : Reach exEnv (Node.run exEnv (exInit exEnv) ops) :=
  ⟨exMem, ops, by decide +kernel, h, rfl⟩

theorem exReachSmall (ops : List Op) (h : ∀ o ∈ ops, Basic o) :
    Reach exSmall (Node.run exSmall (exInit exSmall) ops) :=
  ⟨exMem, ops, by decide +kernel, h, rfl⟩

theorem exOps_basic : ∀ o ∈ exOps, Basic o := by
  simp [exOps, Basic, exTpl]

end LiCan.Node
