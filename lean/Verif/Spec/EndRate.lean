import Verif.Spec.Recon
/-! # Specification vocabulary: the rate with which a search ends -/
namespace LiCan.Spec

/-- What is noted about the searches of a history. -/
structure SearchBook where
  /-- the rate of the last switch of any search, or the startup rate if a search ended later for lack of
  traffic; 0: neither has happened -/
  last : Nat := 0
  /-- no error was seen since `lcsa_start` -/
  first : Bool := false
  /-- a frame was received since `lcsa_start` -/
  heard : Bool := false

/-- the rate with which a search ends now; `u`: the startup rate -/
def SearchBook.ends (b : SearchBook) (u : Nat) : Nat := if b.first = true ∧ b.heard = false then u else b.last

/-- one input, from `s` to `s'` -/
def SearchBook.next (env : AEnv) (b : SearchBook) (s : Stack) (i : SIn) (s' : Stack) : SearchBook :=
  match i with
  | .start _ => if Searching s' then { b with first := true, heard := false } else b
  | .rx .. => { b with heard := true }
  | .process _ _ lec =>
    if Searching s' then
      { b with
        last := (changed s s').getLastD b.last
        first := b.first && decide (Searching s) && !(env.checkLec && decide (lec ≠ .none)) }
    else if Searching s then { b with last := b.ends s.slv.link.startup }
    else b
  | _ => b

/-- a history -/
def searchBook (env : AEnv) : Stack → List SIn → SearchBook → SearchBook
  | _, [], b => b
  | s, i :: is, b => match s.step env i with
    | some s' => searchBook env s' is (b.next env s i s')
    | none => b

end LiCan.Spec
