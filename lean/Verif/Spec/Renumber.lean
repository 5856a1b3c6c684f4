import Verif.Spec.Modules
/-!
# Specification: the module table with number and type changes, and the end of the send list

Extends the table of `Spec/Modules.lean` by changes of the module number and type.  Besides the modules it records
`last`: the place of the last transmit object of the module which was registered or renumbered last (places are
counted four per module, in registration order); a type change sets all awake modules up again.  The transmission of
the process data takes this place for the end of the list of things to be sent, see C10, C126 and C127.
-/
namespace LiCan.Spec

/-- the registered modules, the place taken for the end of the send list, and the other type of each module, if the
application has announced one -/
structure SendList where
  tab  : Table
  last : Nat
  alt  : Nat → Option Row

/-- nothing registered -/
def SendList.empty : SendList := ⟨Table.empty, 0, fun _ => none⟩

/-- A module gets a new number.  If the change can be completed (`ok`: the controller accepts the new message
objects), it takes part in the exchange afterwards iff it is awake.  Otherwise it transmits in any case, with the
conversions it had. -/
def renumberAt (t : Table) (tp nr : Nat) (ok : Bool) : Table :=
  let l := t.mods.modify tp fun m =>
    { m with nr := nr, on := true }
  if ok then { t with mods := switch l tp (decide (t.awake tp = 1)) } else { t with mods := l }

/-- the place of the last transmit object of a module; without transmit objects the old end is kept -/
def endAt (tp txObj old : Nat) : Nat := if txObj = 0 then old else 4 * tp + (txObj - 1)

/-- a change of the number of the first module with the given type and number -/
def SendList.renumber (s : SendList) (typ : List Byte) (nr act : Nat) (ok : Bool) : SendList :=
  match s.tab.mods.findIdx? fun m => m.typ = typ ∧ m.nr = act with
  | none => s
  | some tp => { s with tab := Spec.renumberAt s.tab tp nr ok
                        last := endAt tp ((s.tab.mods[tp]?.map Mod.txObj).getD 0) s.last }

/-- the place of the last transmit object of all awake modules -/
def endOf (l : List Mod) (awake : Nat → Nat) : Nat → Nat
  | 0 => 0
  | k + 1 => if awake k = 1 then endAt k ((l[k]?.map Mod.txObj).getD 0) (endOf l awake k) else endOf l awake k

/-- Module `tp` takes on the type `c`.  Afterwards exactly the awake modules take part, each with the conversions
it had before; the changed one with the start-up conversions of its new type. -/
def SendList.retype (s : SendList) (tp : Nat) (c : Row) : SendList :=
  let l := s.tab.mods.mapIdx fun i m =>
    let m := { m with on := decide (s.tab.awake i = 1) }
    if i = tp then { m with typ := c.typ, txObj := c.txObj, txDlc := c.txDlc, tx := c.tx, main := c.txMain
                            conv := c.txMainSync }
    else m
  { s with tab := { s.tab with mods := l }, last := endOf l s.tab.awake l.length }

/-- What each call does; `ok`: a registration or number change can be completed.  `voter`: what the application
says to a number change by the master, if it wants to be asked. -/
def SendList.step (maxMod : Nat) (voter : Option (List Byte → Nat → Nat → Vote)) (ok : Bool) (s : SendList) :
    Op → SendList
  | .add tpl nr rx tx =>
    { s with tab := (s.tab.step maxMod ok (.add tpl nr rx tx)).1
             last := if s.tab.mods.length = maxMod then s.last else endAt s.tab.mods.length tpl.txObj s.last }
  | .changeNr typ nr act => s.renumber typ nr act ok
  | .changeModuleNr tp nr =>
    match s.tab.mods[tp]? with
    | none => s
    | some m =>
      let s' := s.renumber m.typ nr m.nr ok
      match voter with
      | none => s'
      | some v =>
        match v m.typ nr m.nr with
        | .valid => if ok then { s' with tab := (s'.tab.step maxMod ok (.silentAwake tp 1)).1 } else s'
        | .validButSilent => if ok then { s' with tab := (s'.tab.step maxMod ok (.silentAwake tp 0)).1 } else s'
        | _ => s
  | .changeTypeAdd typ tpl rx tx _ =>
    match s.tab.mods.findIdx? fun m => m.typ = typ with
    | none => s
    | some tp => { s with alt := upd s.alt tp (some { tpl with rx := rx, tx := tx }) }
  | .changeType tp typ =>
    match s.alt tp with
    | none => s
    | some c => if c.typ.take 4 = typ.take 4 then s.retype tp c else s
  | op => { s with tab := (s.tab.step maxMod ok op).1 }

/-- place `p` of the send list is to be sent -/
def Due (t : Table) (p : Nat) : Prop := ∃ m, t.mods[p / 4]? = some m ∧ m.on = true ∧ p % 4 < m.txObj

/-- behind the place taken for the end there is a place not to be sent, and behind that one to be sent -/
def SendList.Gap (s : SendList) : Prop := ∃ p q, s.last < p ∧ p < q ∧ ¬ Due s.tab p ∧ Due s.tab q

/-- Calls covered: those of the table specification, number changes to numbers 1 to 255, type changes to types with
at most four objects per direction. -/
def Numbering : Op → Prop
  | .changeNr _ nr _ => 1 ≤ nr ∧ nr ≤ 255
  | .changeModuleNr _ nr => 1 ≤ nr ∧ nr ≤ 255
  | .changeTypeAdd typ tpl _ _ _ => typ ≠ [] ∧ tpl.typ ≠ [] ∧ tpl.txObj ≤ 4 ∧ tpl.rxObj ≤ 4
  | .changeType _ _ => True
  | op => Basic op

end LiCan.Spec
