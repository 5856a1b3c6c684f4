import Verif.Spec.Recon
/-! # Specification vocabulary for what the application is told about searches -/
namespace LiCan.Spec

/-- the two kinds of search -/
inductive Search
  | startup | online
deriving DecidableEq, Repr

/-- what a callback of the search tells -/
inductive Note
  /-- a search begins -/
  | begins (k : Search)
  /-- a search ended at a rate -/
  | ends (k : Search) (baud : Nat)
deriving DecidableEq, Repr

/-- what a call tells -/
def noteOf : ACall → Option Note
  | .onStart _ => some (.begins .online)
  | .onStop _ b => some (.ends .online b)
  | .suStart _ => some (.begins .startup)
  | .suStop _ b => some (.ends .startup b)
  | _ => none

/-- what an event tells -/
def noteOfEv : Ev → Option Note
  | .app c => noteOf c
  | _ => none

/-- all the application was told, oldest first -/
def told (s : Stack) : List Note := s.slv.node.log.reverse.filterMap noteOfEv

/-- Reading what one is told: every search ends before the next one begins, and as the kind it began
with.  The result is the search that is still open. -/
def track : Option Search → List Note → Option (Option Search)
  | o, [] => some o
  | none, .begins k :: w => track (some k) w
  | some k, .ends k' _ :: w => if k = k' then track none w else none
  | _, _ => none

/-- `lcsa_start` is not called while a search is running -/
def NoRestart (env : AEnv) : Stack → List SIn → Prop
  | _, [] => True
  | s, i :: is => (∀ now, i = .start now → ¬ Searching s) ∧ ∀ s', s.step env i = some s' → NoRestart env s' is

/-- inputs by which the application does not set the reported state -/
def noState : SIn → Bool
  | .setState _ | .init _ => false
  | _ => true

end LiCan.Spec
