import Verif.Model.IoConfig
import Verif.Props.Renumbered
/-! # C150: the I/O configuration of the modules -/
namespace LiCan
open Spec Node

namespace Spec

/-- the calls as the table sees them -/
def tableOps : List IoIn → List Op
  | [] => []
  | .add tpl _ nr rx tx :: is => .add tpl nr rx tx :: tableOps is
  | .set _ _ _ :: is => tableOps is
  | .op o :: is => o :: tableOps is

/-- additions are given with their configuration -/
def IoIn.Plain : IoIn → Prop
  | .op o => ∀ tpl nr rx tx, o ≠ .add tpl nr rx tx
  | _ => True

/-- The configurations in the order of the modules: an addition appends one unless the table is full, a setting goes
to the first module of the type, nothing else changes one. -/
def ioStep (maxMod : Nat) (mods : List Mod) (l : List IoCfg) : IoIn → List IoCfg
  | .add _ c _ _ _ => if mods.length = maxMod then l else l ++ [c]
  | .set typ crc date =>
    match mods.findIdx? fun m => m.typ = typ with
    | none => l
    | some i => l.modify i fun c => { c with crc := crc, date := date }
  | .op _ => l

end Spec

/-- the configurations after a history -/
def ioRun (env : Env) : Node → SendList → List IoCfg → List IoIn → List IoCfg
  | _, _, l, [] => l
  | n, s, l, i :: is =>
    let l' := ioStep env.maxMod s.tab.mods l i
    match i with
    | .add tpl _ nr rx tx =>
      ioRun env (Node.step env n (.add tpl nr rx tx)).1
        (s.step env.maxMod env.voter (doneOk env n (.add tpl nr rx tx)) (.add tpl nr rx tx)) l' is
    | .set _ _ _ => ioRun env n s l' is
    | .op o => ioRun env (Node.step env n o).1 (s.step env.maxMod env.voter (doneOk env n o) o) l' is

theorem renumber_length (s : SendList) (typ : List Byte) (nr act : Nat) (ok : Bool) :
    (s.renumber typ nr act ok).tab.mods.length = s.tab.mods.length := by
  unfold SendList.renumber
  split
  · rfl
  · simp only [Spec.renumberAt]; split <;> simp [switch_length]

/-- no call but an addition changes the number of modules -/
theorem list_length {maxMod : Nat} {v : Option (List Byte → Nat → Nat → Vote)} {ok : Bool} {s : SendList} {o : Op}
    (h : ∀ tpl nr rx tx, o ≠ .add tpl nr rx tx) : (s.step maxMod v ok o).tab.mods.length = s.tab.mods.length := by
  cases o <;> simp only [SendList.step]
  case add => exact absurd rfl (h _ _ _ _)
  case changeNr => exact renumber_length ..
  case changeModuleNr =>
    (repeat' split) <;> first | rfl | exact renumber_length .. | (dsimp only; rw [step_length (by simp)]; exact renumber_length ..)
  case changeTypeAdd => split <;> rfl
  case changeType => (repeat' split) <;> first | rfl | simp [SendList.retype]
  all_goals exact step_length (by simp)

/-- table, list of modules and configurations agree -/
structure IoSim (env : Env) (x : IoNode) (s : SendList) (l : List IoCfg) : Prop where
  sim : SimL env x.node s
  len : l.length = s.tab.mods.length
  io : ∀ i (h : i < l.length), x.io i = l[i]

theorem IoSim.run {env : Env} (h8 : env.maxMod ≤ 8) (is : List IoIn) :
    ∀ {x : IoNode} {s : SendList} {l : List IoCfg}, IoSim env x s l →
      (∀ i ∈ is, IoIn.Plain i) → (∀ typ c d, IoIn.set typ c d ∈ is → typ ≠ []) →
      (∀ o ∈ tableOps is, Numbering o) → AllNamed env x.node (tableOps is) →
      (x.run env is).node = Node.run env x.node (tableOps is) ∧
      IoSim env (x.run env is) (listRun env x.node s (tableOps is)) (ioRun env x.node s l is) := by
  induction is with
  | nil => exact fun h _ _ _ _ => ⟨rfl, h⟩
  | cons i is ih =>
    intro x s l h hp ht ho hn
    have hp' : ∀ i ∈ is, IoIn.Plain i := fun i hi => hp i (by simp [hi])
    have ht' : ∀ typ c d, IoIn.set typ c d ∈ is → typ ≠ [] := fun a b c hi => ht a b c (by simp [hi])
    cases i with
    | add tpl c nr rx tx =>
      have ho1 : Numbering (.add tpl nr rx tx) := ho _ (by simp [tableOps])
      have ho' : ∀ o ∈ tableOps is, Numbering o := fun o hi => ho o (by simp [tableOps, hi])
      have hs := h.sim.step h8 _ ho1 hn.1
      refine ih (x := x.add env tpl c nr rx tx) ⟨hs, ?_, ?_⟩ hp' ht' ho' hn.2
      · simp only [ioStep, SendList.step, Table.step]
        split <;> simp [h.len]
      · intro i hi
        simp only [ioStep] at hi ⊢
        simp only [IoNode.add, h.sim.sim.freeRow]
        by_cases hm : s.tab.mods.length = env.maxMod
        · simp only [hm, if_true] at hi ⊢; exact h.io i hi
        · simp only [hm, if_false] at hi ⊢
          by_cases hk : i < l.length
          · rw [List.getElem_append_left hk, ← h.io i hk]
            simp only [upd]; rw [if_neg (by have := h.len; omega)]
          · have e : i = l.length := by simp at hi; omega
            subst e
            simp [upd, h.len]
    | set typ crc date =>
      have hne : typ ≠ [] := ht typ crc date (by simp)
      have e : (x.setIo env typ crc date).node = x.node := by unfold IoNode.setIo; split <;> rfl
      have q := ih (x := x.setIo env typ crc date) (s := s)
        (l := ioStep env.maxMod s.tab.mods l (.set typ crc date)) (by
          simp only [IoNode.setIo, ioStep, h.sim.sim.findType typ hne]
          cases hx : s.tab.mods.findIdx? fun m => m.typ = typ with
          | none => exact h
          | some k =>
            refine ⟨h.sim, by simp [h.len], fun i hi => ?_⟩
            have hi2 : i < l.length := by simpa using hi
            simp only [List.getElem_modify, upd]
            by_cases e : i = k
            · subst e; simp [h.io i hi2]
            · rw [if_neg e, if_neg (fun q => e q.symm)]; exact h.io i hi2) hp' ht' ho (by rw [e]; exact hn)
      rw [e] at q; exact q
    | op o =>
      have ho1 : Numbering o := ho _ (by simp [tableOps])
      have ho' : ∀ o ∈ tableOps is, Numbering o := fun o hi => ho o (by simp [tableOps, hi])
      refine ih (x := { x with node := (Node.step env x.node o).1 }) ⟨h.sim.step h8 _ ho1 hn.1, ?_, h.io⟩ hp' ht' ho' hn.2
      rw [list_length (hp (.op o) (by simp))]; exact h.len

/-- After every history the function called for a type is that of the first module which has the type now, as it was
added; each module has the configuration of its addition with the last setting that reached it. -/
theorem C150_history {env : Env} (he : EnvOk env) (mem : Nat → List Byte) (io0 : Nat → IoCfg)
    (hok : (Node.init env (boot mem)).2 = E.ok) (is : List IoIn) (hp : ∀ i ∈ is, IoIn.Plain i)
    (ht : ∀ typ c d, IoIn.set typ c d ∈ is → typ ≠ []) (ho : ∀ o ∈ tableOps is, Numbering o)
    (hn : AllNamed env (Node.init env (boot mem)).1 (tableOps is)) :
    let n := (Node.init env (boot mem)).1
    let x := IoNode.run env ⟨n, io0⟩ is
    let mods := (listRun env n SendList.empty (tableOps is)).tab.mods
    let l := ioRun env n SendList.empty [] is
    x.node = Node.run env n (tableOps is) ∧ l.length = mods.length ∧
    (∀ typ, typ ≠ [] → x.call env typ = (mods.findIdx? fun m => m.typ = typ).map fun i => (l[i]?.bind IoCfg.set)) ∧
    ∀ tp (h : tp < l.length), x.get env tp = some l[tp] := by
  have h8 : env.maxMod ≤ 8 := he.m8
  obtain ⟨e, h⟩ := IoSim.run h8 is (x := ⟨(Node.init env (boot mem)).1, io0⟩) (l := [])
    ⟨SimL.init he mem hok, rfl, fun i hi => by simp at hi⟩ hp ht ho hn
  refine ⟨e, h.len, fun typ hne => ?_, fun tp ht => ?_⟩
  · simp only [IoNode.call, h.sim.sim.findType typ hne]
    cases hx : List.findIdx? (fun m => decide (m.typ = typ))
        (listRun env (Node.init env (boot mem)).1 SendList.empty (tableOps is)).tab.mods with
    | none => rfl
    | some k =>
      have hk := findIdx?_lt hx
      have hk' := h.len ▸ hk
      simp only [Option.map_some, h.io k hk', List.getElem?_eq_getElem hk', Option.bind_some]
  · have hl := h.sim.sim.len
    have := h.len
    dsimp only at this hl ht
    simp only [IoNode.get]
    rw [if_pos (by omega), h.io tp ht]

/-! ## Types -/

theorem switch_typ (l : List Mod) (tp : Nat) (b : Bool) : (switch l tp b).map Mod.typ = l.map Mod.typ := by
  refine List.ext_getElem? fun i => ?_
  simp only [List.getElem?_map, switch_get]
  cases l[i]? with
  | none => rfl
  | some m => cases b <;> simp only [Option.map_some] <;> split <;> rfl

theorem table_typ {maxMod : Nat} {ok : Bool} {t : Table} {o : Op} (h : ∀ tpl nr rx tx, o ≠ .add tpl nr rx tx) :
    (t.step maxMod ok o).1.mods.map Mod.typ = t.mods.map Mod.typ := by
  cases o <;> simp only [Table.step]
  · exact absurd rfl (h _ _ _ _)
  all_goals (repeat' split) <;> simp only [switch_typ]

theorem renumber_typ (s : SendList) (typ : List Byte) (nr act : Nat) (ok : Bool) :
    (s.renumber typ nr act ok).tab.mods.map Mod.typ = s.tab.mods.map Mod.typ := by
  have key : ∀ tp, (s.tab.mods.modify tp fun m => { m with nr := nr, on := true }).map Mod.typ = s.tab.mods.map Mod.typ := by
    intro tp
    refine List.ext_getElem? fun i => ?_
    simp only [List.getElem?_map, List.getElem?_modify]
    cases s.tab.mods[i]? with
    | none => rfl
    | some m => simp only [Option.map_some, Option.map_eq_map]; split <;> rfl
  unfold SendList.renumber
  split
  · rfl
  · simp only [Spec.renumberAt]; split <;> simp only [switch_typ, key]

/-- without additions and type changes the modules keep their types -/
theorem list_typ {maxMod : Nat} {v : Option (List Byte → Nat → Nat → Vote)} {ok : Bool} {s : SendList} {o : Op}
    (h : ∀ tpl nr rx tx, o ≠ .add tpl nr rx tx) (hc : ∀ tp typ, o ≠ .changeType tp typ) :
    (s.step maxMod v ok o).tab.mods.map Mod.typ = s.tab.mods.map Mod.typ := by
  cases o <;> simp only [SendList.step]
  case add => exact absurd rfl (h _ _ _ _)
  case changeType => exact absurd rfl (hc _ _)
  case changeNr => exact renumber_typ ..
  case changeModuleNr =>
    (repeat' split) <;> first | rfl | exact renumber_typ .. | (dsimp only; rw [table_typ (by simp)]; exact renumber_typ ..)
  case changeTypeAdd => split <;> rfl
  all_goals exact table_typ (by simp)

/-- the functions of the modules are those of their types -/
theorem ioRun_typ {env : Env} (f : List Byte → Option Nat) (is : List IoIn) :
    ∀ {n : Node} {s : SendList} {l : List IoCfg}, (∀ i ∈ is, IoIn.Plain i) →
      (∀ tpl c nr rx tx, IoIn.add tpl c nr rx tx ∈ is → c.set = f tpl.typ) →
      (∀ tp typ, IoIn.op (.changeType tp typ) ∉ is) →
      l.map IoCfg.set = (s.tab.mods.map Mod.typ).map f →
      (ioRun env n s l is).map IoCfg.set = ((listRun env n s (tableOps is)).tab.mods.map Mod.typ).map f := by
  induction is with
  | nil => exact fun _ _ _ h => h
  | cons i is ih =>
    intro n s l hp ha hc h
    have hp' : ∀ i ∈ is, IoIn.Plain i := fun i hi => hp i (by simp [hi])
    have ha' : ∀ tpl c nr rx tx, IoIn.add tpl c nr rx tx ∈ is → c.set = f tpl.typ :=
      fun a b c d e hi => ha a b c d e (by simp [hi])
    have hc' : ∀ tp typ, IoIn.op (.changeType tp typ) ∉ is := fun a b hi => hc a b (by simp [hi])
    cases i with
    | add tpl c nr rx tx =>
      refine ih hp' ha' hc' ?_
      simp only [ioStep, SendList.step, Table.step]
      split
      · exact h
      · simp only [List.map_append, List.map_cons, List.map_nil, h, ha tpl c nr rx tx (by simp)]
    | set typ crc date =>
      refine ih hp' ha' hc' ?_
      rw [← h]
      simp only [ioStep]
      split
      · rfl
      · refine List.ext_getElem? fun i => ?_
        simp only [List.getElem?_map, List.getElem?_modify]
        cases l[i]? with
        | none => rfl
        | some m => simp only [Option.map_some, Option.map_eq_map]; split <;> rfl
    | op o =>
      refine ih hp' ha' hc' ?_
      rw [list_typ (hp (.op o) (by simp)) (fun a b e => hc a b (by simp [e]))]
      exact h

/-- If every type has its function and no type is changed, the function called for a type is the function of the
type, in every history.  Missing: type changes, see `C150_counterexample_type`. -/
theorem C150_type_partial {env : Env} (he : EnvOk env) (mem : Nat → List Byte) (io0 : Nat → IoCfg)
    (hok : (Node.init env (boot mem)).2 = E.ok) (is : List IoIn) (hp : ∀ i ∈ is, IoIn.Plain i)
    (ht : ∀ typ c d, IoIn.set typ c d ∈ is → typ ≠ []) (ho : ∀ o ∈ tableOps is, Numbering o)
    (hn : AllNamed env (Node.init env (boot mem)).1 (tableOps is)) (f : List Byte → Option Nat)
    (ha : ∀ tpl c nr rx tx, IoIn.add tpl c nr rx tx ∈ is → c.set = f tpl.typ)
    (hc : ∀ tp typ, IoIn.op (.changeType tp typ) ∉ is) (typ : List Byte) (hne : typ ≠ []) :
    let n := (Node.init env (boot mem)).1
    (IoNode.run env ⟨n, io0⟩ is).call env typ =
      if ∃ m ∈ (listRun env n SendList.empty (tableOps is)).tab.mods, m.typ = typ then some (f typ) else none := by
  obtain ⟨_, hl, hcall, _⟩ := C150_history he mem io0 hok is hp ht ho hn
  have hm := ioRun_typ (env := env) f is (n := (Node.init env (boot mem)).1) (s := SendList.empty) (l := []) hp ha hc rfl
  dsimp only at hcall hl ⊢
  rw [hcall typ hne]
  generalize (listRun env (Node.init env (boot mem)).1 SendList.empty (tableOps is)).tab.mods = mods at *
  generalize ioRun env (Node.init env (boot mem)).1 SendList.empty [] is = l at *
  cases hx : mods.findIdx? fun m => m.typ = typ with
  | none =>
    rw [if_neg]
    · rfl
    · rintro ⟨m, h1, h2⟩
      have := List.findIdx?_eq_none_iff.mp hx m h1
      simp [h2] at this
  | some k =>
    obtain ⟨hk, h1, _⟩ := List.findIdx?_eq_some_iff_getElem.mp hx
    have h1 : mods[k].typ = typ := by simpa using h1
    rw [if_pos ⟨mods[k], List.getElem_mem hk, h1⟩]
    have hk' : k < l.length := by omega
    have := congrArg (fun x => x[k]?) hm
    simp only [List.getElem?_map, List.getElem?_eq_getElem hk, List.getElem?_eq_getElem hk', Option.map_some, h1,
      Option.some.injEq] at this
    simp only [Option.map_some, List.getElem?_eq_getElem hk', Option.bind_some, this]

/-! ## Examples -/

def exIo (k : Nat) : IoCfg := ⟨65535, 0, some k⟩

def exIo0 : IoNode := ⟨(Node.init exEnv (boot exMem)).1, fun _ => ⟨0, 0, none⟩⟩

def exIoAdd (x : Byte) (k nr : Nat) : IoIn := .add (exTpl x 1 1) (exIo k) nr (fun j => 100 + j) (fun j => 110 + j)

/-- The module of type MDA takes on the type MDB: the function of MDA is called for MDB. -/
theorem C150_counterexample_type :
    ∃ (f : List Byte → Option Nat) (is : List IoIn), f [77, 68, 65] = some 1 ∧ f [77, 68, 66] = some 2 ∧
      (∀ tpl c nr rx tx, IoIn.add tpl c nr rx tx ∈ is → c.set = f tpl.typ) ∧
      (exIo0.run exEnv is).call exEnv [77, 68, 65] = none ∧
      (exIo0.run exEnv is).call exEnv [77, 68, 66] = some (some 1) := by
  refine ⟨fun t => if t = [77, 68, 65] then some 1 else some 2,
    [exIoAdd 65 1 5,
     .op (.changeTypeAdd [77, 68, 65] (exTpl 66 1 1) (fun j => 100 + j) (fun j => 110 + j) false),
     .op (.changeType 0 [77, 68, 66])], by decide, by decide, ?_, by decide +kernel, by decide +kernel⟩
  intro tpl c nr rx tx h
  simp only [exIoAdd, List.mem_cons, IoIn.add.injEq, reduceCtorEq, List.not_mem_nil, or_false] at h
  rw [h.1, h.2.1]; decide

/-- Of two modules of a type the second is reached by no setting and no call. -/
theorem C150_counterexample_second :
    let x := exIo0.run exEnv [exIoAdd 65 1 5, exIoAdd 65 2 9, .set [77, 68, 65] 4660 2026]
    x.call exEnv [77, 68, 65] = some (some 1) ∧ x.get exEnv 0 = some ⟨4660, 2026, some 1⟩ ∧
    x.get exEnv 1 = some (exIo 2) := by
  decide +kernel

/-- two types, a setting for the second and a number change -/
example :
    let is := [exIoAdd 65 1 5, exIoAdd 66 2 9, .set [77, 68, 66] 4660 2026, .op (.changeNr [77, 68, 66] 20 9)]
    let x := exIo0.run exEnv is
    (∀ i ∈ is, IoIn.Plain i) ∧ (∀ o ∈ tableOps is, Numbering o) ∧ AllNamed exEnv exIo0.node (tableOps is) ∧
    x.call exEnv [77, 68, 65] = some (some 1) ∧ x.call exEnv [77, 68, 66] = some (some 2) ∧
    x.call exEnv [77, 68, 67] = none ∧ x.get exEnv 1 = some ⟨4660, 2026, some 2⟩ := by
  refine ⟨?_, ?_, ?_, by decide +kernel, by decide +kernel, by decide +kernel, by decide +kernel⟩
  · simp [exIoAdd, IoIn.Plain]
  · simp [exIoAdd, tableOps, Numbering, Basic, exTpl]
  · simp [exIoAdd, tableOps, AllNamed, Named]

end LiCan
