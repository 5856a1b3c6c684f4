import Verif.Model.NodeRun
/-!
# Specification: the module table as its user sees it

An ordered list of registered modules.  Each has its type, its number, the layout of its
process data, and is transmitting or not.  This is the reference for C04, C05, C09, C11 and C13;
it knows nothing about send registers, message objects or the `*_sync` copies of the table.
-/
namespace LiCan.Spec

/-- A registered module. -/
structure Mod where
  typ   : List Byte
  nr    : Nat
  /-- number and lengths of the transmit objects -/
  txObj : Nat
  txDlc : Nat → Nat
  /-- the application's transmit objects and conversions -/
  tx    : Nat → Nat
  main  : Nat → Conv
  /-- the conversions in use: `main` while the module takes part, except after a registration
  that could not be completed; else conversions that do nothing -/
  conv  : Nat → Conv
  /-- does the module take part in the process data exchange? -/
  on    : Bool

/-- The registered modules in registration order, and the silent (0) / awake (1) state per row. -/
structure Table where
  mods  : List Mod
  awake : Nat → Nat

/-- nothing registered, everything awake -/
def Table.empty : Table := ⟨[], fun _ => 1⟩

/-- switch the process data of one row on or off -/
def switch (l : List Mod) (tp : Nat) (b : Bool) : List Mod :=
  l.modify tp fun m => if b then { m with on := true, conv := m.main }
    else { m with on := false, conv := fun _ => .dummy }

/-- the number a new module gets: its default number 125 + row if the wanted one is taken or
outside 2..124 -/
def newNr (l : List Mod) (nr : Nat) : Nat :=
  if l.any (fun m => m.nr = nr) ∨ nr < 2 ∨ 124 < nr then 125 + l.length else nr

/-- What each call does.  `ok`: a registration can be completed, i.e. there are message objects
for it and the controller accepts their configuration.  A module whose registration could not be
completed is in the table and transmits, with the start-up conversions of its template. -/
def Table.step (maxMod : Nat) (ok : Bool) (t : Table) : Op → Table × Err
  | .add tpl nr _ tx =>
    if t.mods.length = maxMod then (t, E.maxModules)
    else ({ t with mods := t.mods ++
              [{ typ := tpl.typ, nr := newNr t.mods nr, txObj := tpl.txObj, txDlc := tpl.txDlc
                 tx := tx, main := tpl.txMain
                 conv := if ok then if t.awake t.mods.length = 1 then tpl.txMain else fun _ => .dummy
                         else tpl.txMainSync
                 on := !ok || t.awake t.mods.length = 1 }] },
          if t.mods.any (fun m => m.nr = nr) then E.redeclaredNr else E.ok)
  | .silentAwake tp st =>
    if maxMod ≤ tp then (t, E.wrongTablePos)
    else if st = 0 then (⟨switch t.mods tp false, upd t.awake tp st⟩, E.ok)
    else if st = 1 then (⟨switch t.mods tp true, upd t.awake tp st⟩, E.ok)
    else (⟨t.mods, upd t.awake tp st⟩, E.invalidSilentAwake)
  | .silentAwakeBy typ nr st =>
    match t.mods.findIdx? fun m => m.typ = typ ∧ m.nr = nr with
    | none => (t, E.moduleNotFound)
    | some tp =>
      if st = 0 then (⟨switch t.mods tp false, upd t.awake tp st⟩, E.ok)
      else if st = 1 then (⟨switch t.mods tp true, upd t.awake tp st⟩, E.ok)
      else (⟨t.mods, upd t.awake tp st⟩, E.invalidSilentAwake)
  | .setActive typ =>
    match t.mods.findIdx? fun m => m.typ = typ with
    | none => (t, E.typeNotFound)
    | some tp => ({ t with mods := switch t.mods tp true }, E.ok)
  | .setCritical typ =>
    match t.mods.findIdx? fun m => m.typ = typ with
    | none => (t, E.typeNotFound)
    | some tp => ({ t with mods := switch t.mods tp false }, E.ok)
  | _ => (t, E.ok)

/-- A history in which every registration can be completed. -/
def Table.run (maxMod : Nat) (t : Table) : List Op → Table
  | [] => t
  | o :: os => Table.run maxMod (t.step maxMod true o).1 os

/-- Calls the table specification covers (everything but number and type changes), with usable
arguments: a type name, at most four objects per direction. -/
def Basic : Op → Prop
  | .add tpl _ _ _ => tpl.typ ≠ [] ∧ tpl.txObj ≤ 4 ∧ tpl.rxObj ≤ 4
  | .silentAwake .. => True
  | .silentAwakeBy typ _ _ => typ ≠ []
  | .setActive typ => typ ≠ []
  | .setCritical typ => typ ≠ []
  | .process => True
  | _ => False

/-- The content of transmit object `o` of a module as the conversion function puts it into a
frame; `scratch` is the buffer the conversion writes into. -/
def content (env : Env) (mem : Nat → List Byte) (scratch : List Byte) (m : Mod) (o : Nat) :
    List Byte :=
  match m.conv o with
  | .app k => ((env.txConv k (mem (m.tx o)) (m.txDlc o) scratch).1).take (m.txDlc o)
  | _ => []

/-- The frames answering a process request: per module in registration order, per transmit
object in ascending order, for the modules taking part. -/
def replies (env : Env) (mem : Nat → List Byte) (l : List Mod) : List Frame :=
  l.flatMap fun m =>
    if m.on then
      (List.range m.txObj).map fun o =>
        ⟨0x400 + 4 * (m.nr - 1) + o, m.txDlc o, content env mem env.garbage m o⟩
    else []

end LiCan.Spec
