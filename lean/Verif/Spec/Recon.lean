import Verif.Spec.Transfer
/-! # Specification vocabulary for the baud rate search -/
namespace LiCan.Spec

/-- the rates in the order in which they are tried -/
def tab : List Nat := [125, 1000, 500, 250]

/-- one of the four rates -/
def Rate (b : Nat) : Prop := b = 125 ∨ b = 250 ∨ b = 500 ∨ b = 1000

instance (b : Nat) : Decidable (Rate b) := by unfold Rate; infer_instance

/-- a search is running -/
def Searching (s : Stack) : Prop := s.rc.state = .startup ∨ s.rc.state = .on ∨ s.rc.state = .idle

instance (s : Stack) : Decidable (Searching s) := by unfold Searching; infer_instance

/-- inputs that do not set the node mode on behalf of the application -/
def noMode : SIn → Bool
  | .api (.setMode _) => false
  | _ => true

/-- a search lasts all the time and is not started again -/
def Lasts (env : AEnv) : Stack → List SIn → Prop
  | s, [] => Searching s
  | s, i :: is => Searching s ∧ noMode i = true ∧ (∀ now, i ≠ .start now) ∧ ∀ s', s.step env i = some s' → Lasts env s' is

/-- the rate stored by the last successful change, if there was one between two states -/
def changed (s s' : Stack) : List Nat :=
  if s'.slv.link.storedN = s.slv.link.storedN then [] else [s'.slv.link.stored]

/-- the rates the controller was switched to during a history -/
def switches (env : AEnv) : Stack → List SIn → List Nat
  | _, [] => []
  | s, i :: is => match s.step env i with
    | some s' => changed s s' ++ switches env s' is
    | none => []

/-- errors the controller sees while it listens at a wrong rate -/
def Bad : Lec → Bool
  | .stuff | .form | .ack | .bit1 | .crc => true
  | _ => false

/-- a call of `lcsa_process` -/
structure Call where
  now : Nat
  bus : Stack.BusState
  lec : Lec

/-- the input -/
def Call.sin (c : Call) : SIn := .process c.now c.bus c.lec

/-- Calls in rounds: the first of a round sees an error after the time the rate before was set has
passed, the others follow.  `t`: when that time ends. -/
def Rounds (env : AEnv) : Nat → List (Call × List Call) → Prop
  | _, [] => True
  | t, (c, cs) :: rs => t < c.now ∧ Bad c.lec = true ∧ cs.length = env.idleMax + 1 ∧
      Rounds env (u32 (c.now + env.ms2t env.swTime)) rs

/-- the history -/
def Rounds.ins (rs : List (Call × List Call)) : List SIn := rs.flatMap fun r => r.1.sin :: r.2.map Call.sin

/-- the call that reports the end of a search -/
def stopCall (rc : Recon) (b : Nat) : List Ev :=
  match rc.cause with
  | .startup | .noTraffic => match rc.suStop with
    | some f => [.app (.suStop f b)]
    | none => []
  | .ewrn | .boff => match rc.onStop with
    | some f => [.app (.onStop f b)]
    | none => []
  | .download => []

end LiCan.Spec
