import Verif.Spec.Renumber
/-!
# Specification: the send list over several initializations

`lcsa_init` empties the module table, but what was to be sent before is still to be sent afterwards: the places in use
stay in use (`left`) until a module registered at the same place takes them over.
-/
namespace LiCan.Spec

/-- the modules registered since the last initialization, the place taken for the end of the send list, and the
places still in use from before -/
structure Life where
  tab  : Table
  last : Nat
  left : Nat → Bool

/-- place `p` is used by a transmit object of a registered module, switched on or not -/
def Covered (l : List Mod) (p : Nat) : Prop := ∃ m, l[p / 4]? = some m ∧ p % 4 < m.txObj

instance (l : List Mod) (p : Nat) : Decidable (Covered l p) :=
  match h : l[p / 4]? with
  | none => .isFalse fun ⟨m, e, _⟩ => by rw [h] at e; cases e
  | some m => if h' : p % 4 < m.txObj then .isTrue ⟨m, h, h'⟩
    else .isFalse fun ⟨x, e, g⟩ => by rw [h] at e; cases e; exact h' g

/-- place `p` of the send list is to be sent for a registered module -/
def dueB (t : Table) (p : Nat) : Bool :=
  match t.mods[p / 4]? with
  | none => false
  | some m => m.on && decide (p % 4 < m.txObj)

/-- initialization: no module is registered any more; silent and awake and the places in use stay as they were -/
def Life.restart (s : Life) : Life := ⟨⟨[], s.tab.awake⟩, s.last, fun p => dueB s.tab p || s.left p⟩

/-- a call after an initialization -/
def Life.step (maxMod : Nat) (ok : Bool) (s : Life) (op : Op) : Life :=
  let t := (s.tab.step maxMod ok op).1
  { tab := t
    last := match op with
      | .add tpl _ _ _ => if s.tab.mods.length = maxMod then s.last else endAt s.tab.mods.length tpl.txObj s.last
      | _ => s.last
    left := fun p => s.left p && !decide (Covered t.mods p) }

/-- place `p` is to be sent -/
def Life.Due (s : Life) (p : Nat) : Prop := Spec.Due s.tab p ∨ s.left p = true

/-- behind the place taken for the end there is a place not to be sent, and behind that one to be sent -/
def Life.Gap (s : Life) : Prop := ∃ p q, s.last < p ∧ p < q ∧ ¬ s.Due p ∧ s.Due q

/-- calls covered after an initialization: those of the table specification; silent and awake only for rows
registered since -/
def Proceeds (maxMod : Nat) (s : Life) : Op → Prop
  | .silentAwake tp _ => tp < s.tab.mods.length ∨ maxMod ≤ tp
  | op => Basic op

end LiCan.Spec
