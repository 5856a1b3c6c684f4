/-!
# Executing pieces of code one after the other

Reference for code that runs in several contexts: `next` makes one step of a piece of code with local
data `L` on shared data `D`, `none` says that it has finished.
-/
namespace LiCan
namespace Spec
variable {L D : Type}

/-- Started with local data `l` on shared data `d` and undisturbed, the code comes to `l'` and `d'`. -/
inductive Runs (next : L → D → Option (L × D)) (l : L) (d : D) : L → D → Prop
  | refl : Runs next l d l d
  | step {l1 d1 l2 d2} : Runs next l d l1 d1 → next l1 d1 = some (l2, d2) → Runs next l d l2 d2

/-- The pieces of code started with the given arguments, executed one after the other, each from its
beginning to its end, lead from `d` to the last argument. -/
inductive Serial (next : L → D → Option (L × D)) (d : D) : List L → D → Prop
  | nil : Serial next d [] d
  | snoc {as a d1 l d2} : Serial next d as d1 → Runs next a d1 l d2 → next l d2 = none →
      Serial next d (as ++ [a]) d2

end Spec
end LiCan
