import Verif.Model.Lookup
import Verif.Props.Renumbered
/-!
# What the application learns about its modules: C129
-/
namespace LiCan
open Spec Node

namespace Spec

/-- the number of the first module registered with that type -/
def numberOf (l : List Mod) (typ : List Byte) : Option Nat := (l.find? fun m => m.typ = typ).map Mod.nr

end Spec

/-- searching the table is searching the list of modules -/
theorem findType_list {env : Env} {n : Node} {t : Table} (h : SimQ False env n t) (typ : List Byte) (ht : typ ≠ []) :
    (n.findType env typ).map (fun i => (n.rows i).nr) = numberOf t.mods typ := by
  unfold findType numberOf
  have key : ∀ (k : Nat) (l : List Mod) (b : Nat), l.length ≤ k →
      (∀ i m, l[i]? = some m → (n.rows (b + i)).typ = m.typ ∧ (n.rows (b + i)).nr = m.nr) →
      (∀ i, l.length ≤ i → (n.rows (b + i)).typ = []) →
      ((List.range' b k).find? fun i => (n.rows i).typ = typ).map (fun i => (n.rows i).nr) =
        (l.find? fun m => m.typ = typ).map Mod.nr := by
    intro k
    induction k with
    | zero =>
      intro l b hl _ _
      have : l = [] := List.length_eq_zero_iff.1 (Nat.le_zero.1 hl)
      subst this; rfl
    | succ k ih =>
      intro l b hl h1 h2
      rw [List.range'_succ, List.find?_cons]
      cases l with
      | nil =>
        have e : (n.rows b).typ = [] := h2 0 (Nat.zero_le _)
        rw [show (decide ((n.rows b).typ = typ)) = false by rw [e]; exact decide_eq_false (fun e => ht e.symm)]
        exact ih [] (b + 1) (Nat.zero_le _) (fun i m hm => by simp at hm) (fun i _ => by
          rw [show b + 1 + i = b + (i + 1) by omega]; exact h2 (i + 1) (Nat.zero_le _))
      | cons m l =>
        obtain ⟨e1, e2⟩ := h1 0 m rfl
        rw [List.find?_cons]
        rw [Nat.add_zero] at e1 e2
        rw [e1]
        by_cases hm : m.typ = typ
        · rw [show (decide (m.typ = typ)) = true from decide_eq_true hm]
          simp only [Option.map_some]
          rw [e2]
        · rw [show (decide (m.typ = typ)) = false from decide_eq_false hm]
          refine ih l (b + 1) (by simp only [List.length_cons] at hl; omega) (fun i x hx => ?_) (fun i hi => ?_)
          · rw [show b + 1 + i = b + (i + 1) by omega]
            exact h1 (i + 1) x hx
          · rw [show b + 1 + i = b + (i + 1) by omega]
            exact h2 (i + 1) (by simp only [List.length_cons]; omega)
  have := key env.maxMod t.mods 0 h.len (fun i m hm => by
    rw [Nat.zero_add]; exact ⟨(h.row i m hm).typ, (h.row i m hm).nr⟩) (fun i hi => by
    rw [Nat.zero_add]; exact (h.free i hi).1)
  rw [List.range_eq_range']
  exact this

/-- **C129.**  After any history of registrations, mode calls, number and type changes, the number reported for a type is
the current number of the first module registered with it; if there is none, an error is returned. -/
theorem C129_number_by_type (env : Env) (he : EnvOk env) (mem : Nat → List Byte) (ops : List Op)
    (hok : (Node.init env (boot mem)).2 = E.ok) (ho : ∀ o ∈ ops, Numbering o)
    (hn : AllNamed env (Node.init env (boot mem)).1 ops) (typ : List Byte) (ht : typ ≠ []) :
    let n := Node.run env (Node.init env (boot mem)).1 ops
    let s := listRun env (Node.init env (boot mem)).1 SendList.empty ops
    n.nrByType env typ = match numberOf s.tab.mods typ with
      | some k => (k, E.ok)
      | none => (125, E.typeNotFound) := by
  intro n s
  have h : SimL env n s := SimL.run he.m8 ops ho (SimL.init he mem hok) hn
  have := findType_list h.sim typ ht
  unfold nrByType
  rw [← this]
  cases n.findType env typ <;> rfl

/-- **C129.**  The reported number is the one on the bus: if a module takes part and no other module has its type, then
the answer to a process request contains its frames, with the identifiers which the reported number gives them. -/
theorem C129_number_is_sent (env : Env) (he : EnvOk env) (mem : Nat → List Byte) (ops : List Op)
    (hok : (Node.init env (boot mem)).2 = E.ok) (ho : ∀ o ∈ ops, Numbering o)
    (hn : AllNamed env (Node.init env (boot mem)).1 ops) (m : Mod) :
    let n := Node.run env (Node.init env (boot mem)).1 ops
    let s := listRun env (Node.init env (boot mem)).1 SendList.empty ops
    m ∈ s.tab.mods → m.on = true → (∀ x ∈ s.tab.mods, x.typ = m.typ → x.nr = m.nr) →
    ¬ s.Gap → Convertible env n.mem s.tab.mods →
    ∃ (n' : Node) (evs : List Ev), sendProcessData env n = some n' ∧ n'.log = evs.reverse ++ n.log ∧
      ∀ o < m.txObj, ∃ f ok, Ev.frame f ok ∈ evs ∧ f.id = 0x400 + 4 * ((n.nrByType env m.typ).1 - 1) + o ∧
        f.dlc = m.txDlc o := by
  intro n s hm hon hu hg hc
  obtain ⟨n', evs, e1, e2, e3, -⟩ := C126_process_data env he mem ops hok ho hn hg hc
  refine ⟨n', evs, e1, e2, fun o hlt => ?_⟩
  have h : SimL env n s := SimL.run he.m8 ops ho (SimL.init he mem hok) hn
  have ht : m.typ ≠ [] := by
    obtain ⟨i, hi, e⟩ := List.getElem_of_mem hm
    exact (h.sim.row i m (by rw [← e]; exact List.getElem?_eq_getElem hi)).ne
  have hnr : (n.nrByType env m.typ).1 = m.nr := by
    rw [C129_number_by_type env he mem ops hok ho hn m.typ ht]
    unfold numberOf
    cases hf : s.tab.mods.find? fun x => x.typ = m.typ with
    | none => exact absurd (List.find?_eq_none.1 hf m hm) (by simp)
    | some x =>
      have := List.find?_some hf
      exact hu x (List.mem_of_find?_eq_some hf) (of_decide_eq_true this)
  rw [hnr]
  have hmem : (⟨0x400 + 4 * (m.nr - 1) + o, m.txDlc o, content env n.mem env.garbage m o⟩ : Frame) ∈ replies env n.mem s.tab.mods := by
    unfold replies
    refine List.mem_flatMap.2 ⟨m, hm, ?_⟩
    rw [if_pos hon]
    exact List.mem_map.2 ⟨o, List.mem_range.2 hlt, rfl⟩
  have := List.mem_map_of_mem (f := some) hmem
  rw [← e3] at this
  obtain ⟨ev, hev, e⟩ := List.mem_map.1 this
  cases ev with
  | frame f ok =>
    injection e with e
    refine ⟨f, ok, hev, ?_, ?_⟩
    · rw [e]
    · rw [e]
  | _ => cases e

/-- **C129.**  The functions which take a table position report on the modules in registration order; the position has
to exist.  The main module is the first one registered. -/
theorem C129_by_position (env : Env) (he : EnvOk env) (mem : Nat → List Byte) (ops : List Op)
    (hok : (Node.init env (boot mem)).2 = E.ok) (ho : ∀ o ∈ ops, Numbering o)
    (hn : AllNamed env (Node.init env (boot mem)).1 ops) :
    let n := Node.run env (Node.init env (boot mem)).1 ops
    let s := listRun env (Node.init env (boot mem)).1 SendList.empty ops
    (∀ tp m, s.tab.mods[tp]? = some m → n.nrAt env tp = (some m.nr, E.ok) ∧ n.stateAt env tp = (some (s.tab.awake tp), E.ok)) ∧
    (∀ m, s.tab.mods[0]? = some m → n.nrMain = m.nr) ∧
    (∀ tp, env.maxMod ≤ tp → n.nrAt env tp = (none, E.wrongTablePos) ∧ n.stateAt env tp = (none, E.wrongTablePos)) ∧
    n.count ≤ s.tab.mods.length := by
  intro n s
  have h : SimL env n s := SimL.run he.m8 ops ho (SimL.init he mem hok) hn
  refine ⟨fun tp m hm => ?_, fun m hm => (h.sim.row 0 m hm).nr, fun tp ht => ?_, h.cnt⟩
  · have hlt : tp < env.maxMod := Nat.lt_of_lt_of_le (List.getElem?_eq_some_iff.1 hm).1 h.sim.len
    unfold nrAt stateAt
    rw [if_pos hlt, if_pos hlt, (h.sim.row tp m hm).nr, h.sim.awake]
    exact ⟨rfl, rfl⟩
  · unfold nrAt stateAt
    rw [if_neg (by omega), if_neg (by omega)]
    exact ⟨rfl, rfl⟩

/-! ## Examples -/

/-- C129: the second module was renumbered from 9 to 20 -/
example : (∀ o ∈ exRenumOps, Numbering o) ∧ AllNamed exEnv (exInit exEnv) exRenumOps ∧
    (Node.run exEnv (exInit exEnv) exRenumOps).nrByType exEnv [77, 68, 66] = (20, E.ok) ∧
    (Node.run exEnv (exInit exEnv) exRenumOps).nrByType exEnv [77, 68, 90] = (125, E.typeNotFound) ∧
    (Node.run exEnv (exInit exEnv) exRenumOps).nrMain = 5 ∧
    numberOf (listRun exEnv (exInit exEnv) SendList.empty exRenumOps).tab.mods [77, 68, 66] = some 20 := by
  refine ⟨by simp [exRenumOps, exOps, Numbering, Basic, exTpl], by simp [exRenumOps, exOps, AllNamed, Named], ?_⟩
  decide +kernel

/-- **C129** does not hold for the empty type: it is found as long as the table is not full, and the number returned is
the default number of an unused row. -/
theorem C129_counterexample_empty :
    (Node.run exEnv (exInit exEnv) exOps).nrByType exEnv [] = (127, E.ok) := by
  decide +kernel

/-- **C129** speaks about the first module only: of two modules of one type the second one can not be asked for. -/
theorem C129_counterexample_twice :
    let ops := [Op.add (exTpl 65 1 2) 5 (fun j => 100 + j) (fun j => 110 + j), .add (exTpl 65 1 2) 6 (fun j => 120 + j) (fun j => 130 + j)]
    (listRun exEnv (exInit exEnv) SendList.empty ops).tab.mods.map Mod.nr = [5, 6] ∧
    (Node.run exEnv (exInit exEnv) ops).nrByType exEnv [77, 68, 65] = (5, E.ok) := by
  decide +kernel

end LiCan
