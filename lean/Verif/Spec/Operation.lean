import Verif.Spec.Recon
/-! # Specification vocabulary for a node in operation -/
namespace LiCan.Spec

/-- the node takes part in the traffic: its mode is OPERATIONAL and the controller is started -/
def InOperation (s : Stack) : Prop := s.slv.link.mode = .operational ∧ s.slv.link.drv = .start

instance (s : Stack) : Decidable (InOperation s) := by unfold InOperation; infer_instance

/-- the node only listens, and nobody looks for a bit rate -/
def Deaf (s : Stack) : Prop := s.slv.link.mode = .listen ∧ s.rc.state = .off

instance (s : Stack) : Decidable (Deaf s) := by unfold Deaf; infer_instance

/-- inputs by which the application neither stops the node nor sets its mode itself -/
def noStop : SIn → Bool
  | .setState .stopped | .api (.setMode _) => false
  | _ => true

/-- inputs by which the application neither sets the mode nor starts the node, on a bus without errors -/
def noRescue : SIn → Bool
  | .api (.setMode _) | .start _ => false
  | .process _ bus lec => decide (bus = .active ∧ lec = .none)
  | _ => true

/-- `lcsa_set_baudrate` is called only while the node is stopped or not yet started -/
def RateWhenStopped (env : AEnv) : Stack → List SIn → Prop
  | _, [] => True
  | s, i :: is => ((∃ b, i = .setBaud b) → s.slv.link.mode = .init ∨ s.slv.link.mode = .stopped) ∧
      ∀ s', s.step env i = some s' → RateWhenStopped env s' is

end LiCan.Spec
