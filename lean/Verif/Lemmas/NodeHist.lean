import Verif.Lemmas.NodeSend
import Verif.Props.Ids
/-! # Consequences for whole histories -/
namespace LiCan
open Spec
namespace Node

/-- message objects a call needs -/
def need : Op → Nat
  | .add tpl _ _ _ => tpl.rxObj + 1
  | _ => 0

/-- silent/awake requests carry one of the two defined states -/
def StateOk : Op → Prop
  | .silentAwake _ st => st ≤ 1
  | .silentAwakeBy _ _ st => st ≤ 1
  | _ => True

/-! ## the specification alone -/

/-- numbers of the modules of the specification -/
structure NrInv (l : List Mod) : Prop where
  range : ∀ (i : Nat) (m : Mod), l[i]? = some m → (2 ≤ m.nr ∧ m.nr ≤ 124) ∨ m.nr = 125 + i
  dist : ∀ (i j : Nat) (m m' : Mod), l[i]? = some m → l[j]? = some m' → i ≠ j → m.nr ≠ m'.nr

theorem NrInv.modify {l : List Mod} (h : NrInv l) (tp : Nat) (f : Mod → Mod) (hf : ∀ m, (f m).nr = m.nr) :
    NrInv (l.modify tp f) := by
  have key : ∀ (i : Nat) (m : Mod), (l.modify tp f)[i]? = some m → ∃ m0 : Mod, l[i]? = some m0 ∧ m.nr = m0.nr := by
    intro i m hm
    rw [List.getElem?_modify] at hm
    simp only [Option.map_eq_map, Option.map_eq_some_iff] at hm
    obtain ⟨m0, h0, rfl⟩ := hm
    refine ⟨m0, h0, ?_⟩
    split
    · exact hf m0
    · rfl
  constructor
  · intro i m hm
    obtain ⟨m0, h0, e⟩ := key i m hm
    rw [e]; exact h.range i m0 h0
  · intro i j m m' hm hm' hij
    obtain ⟨m0, h0, e⟩ := key i m hm
    obtain ⟨m1, h1, e'⟩ := key j m' hm'
    rw [e, e']; exact h.dist i j m0 m1 h0 h1 hij

theorem NrInv.switch {l : List Mod} (h : NrInv l) (tp : Nat) (b : Bool) : NrInv (switch l tp b) := by
  apply h.modify; intro m; split <;> rfl

theorem NrInv.snoc {l : List Mod} (h : NrInv l) (m : Mod) (nr : Nat) (hm : m.nr = newNr l nr) :
    NrInv (l ++ [m]) := by
  have key : ∀ i x, (l ++ [m])[i]? = some x → l[i]? = some x ∨ (i = l.length ∧ x = m) := by
    intro i x hx
    rw [List.getElem?_append] at hx
    split at hx
    · exact .inl hx
    · right
      have h1 : i - l.length < 1 := by
        have := (List.getElem?_eq_some_iff.1 hx).1; simpa using this
      have h2 : i - l.length = 0 := by omega
      rw [h2] at hx
      exact ⟨by omega, by simpa using hx.symm⟩
  have new : ∀ (j : Nat) (m' : Mod), l[j]? = some m' → m'.nr ≠ m.nr := by
    intro j m' hj
    have hjl : j < l.length := (List.getElem?_eq_some_iff.1 hj).1
    rw [hm, newNr]
    split
    · next hc =>
      rcases h.range j m' hj with hr | hr <;> omega
    · next hc =>
      simp only [List.any_eq_true, decide_eq_true_eq, not_or, not_exists, not_and] at hc
      exact hc.1 m' (List.mem_of_getElem? hj)
  constructor
  · intro i x hx
    rcases key i x hx with h' | ⟨rfl, rfl⟩
    · exact h.range i x h'
    · rw [hm, newNr]
      split
      · exact .inr rfl
      · next hc => simp only [not_or] at hc; left; omega
  · intro i j x y hx hy hij
    rcases key i x hx with h' | ⟨rfl, rfl⟩ <;> rcases key j y hy with h'' | ⟨rfl, rfl⟩
    · exact h.dist i j x y h' h'' hij
    · exact new i x h'
    · exact fun e => new j y h'' e.symm
    · exact absurd rfl hij

theorem NrInv.step {t : Table} (h : NrInv t.mods) (maxMod : Nat) (ok : Bool) (op : Op) :
    NrInv (t.step maxMod ok op).1.mods := by
  cases op with
  | add tpl nr rx tx =>
    simp only [Table.step]; split
    · exact h
    · exact h.snoc _ nr rfl
  | silentAwake tp st =>
    simp only [Table.step]; (repeat' split) <;> first | exact h | exact h.switch _ _
  | silentAwakeBy typ nr st =>
    simp only [Table.step]; split
    · exact h
    · (repeat' split) <;> first | exact h | exact h.switch _ _
  | setActive typ => simp only [Table.step]; split <;> first | exact h | exact h.switch _ _
  | setCritical typ => simp only [Table.step]; split <;> first | exact h | exact h.switch _ _
  | _ => exact h

theorem NrInv.specRun {env : Env} (ops : List Op) : ∀ {n : Node} {t : Table}, NrInv t.mods →
    NrInv (specRun env n t ops).mods := by
  induction ops with
  | nil => exact fun h => h
  | cons o os ih => intro n t h; exact ih (h.step _ _ _)

/-! ## reachable states -/

/-- States reached by a history of table calls after a successful initialisation. -/
def Reach (env : Env) (n : Node) : Prop :=
  ∃ (mem : Nat → List Byte) (ops : List Op), (Node.init env (boot mem)).2 = E.ok ∧
    (∀ o ∈ ops, Basic o) ∧ n = Node.run env (Node.init env (boot mem)).1 ops

theorem Reach.good {env : Env} {n : Node} (he : EnvOk env) (h : Reach env n) :
    ∃ t, Good env n t ∧ NrInv t.mods := by
  obtain ⟨mem, ops, hok, hb, rfl⟩ := h
  refine ⟨_, Good.run he ops hb (Good.init he mem hok), NrInv.specRun ops ?_⟩
  constructor <;> simp [Table.empty]

theorem run_append (env : Env) (n : Node) (a b : List Op) :
    Node.run env n (a ++ b) = Node.run env (Node.run env n a) b := by
  induction a generalizing n with
  | nil => rfl
  | cons o os ih => exact ih _

theorem Reach.step {env : Env} {n : Node} (h : Reach env n) (op : Op) (hb : Basic op) :
    Reach env (Node.step env n op).1 := by
  obtain ⟨mem, ops, hok, hbs, rfl⟩ := h
  refine ⟨mem, ops ++ [op], hok, ?_, ?_⟩
  · intro o ho
    simp only [List.mem_append, List.mem_singleton] at ho
    rcases ho with ho | rfl
    · exact hbs o ho
    · exact hb
  · rw [run_append]; rfl

theorem Reach.run {env : Env} (ops : List Op) : ∀ {n : Node}, Reach env n → (∀ o ∈ ops, Basic o) →
    Reach env (Node.run env n ops) := by
  induction ops with
  | nil => exact fun h _ => h
  | cons o os ih => exact fun h hb => ih (h.step o (hb o (by simp))) (fun x hx => hb x (by simp [hx]))

theorem Sim.registered {env : Env} {n : Node} {t : Table} (h : Sim env n t) (i : Nat) :
    (n.rows i).typ ≠ [] ↔ i < t.mods.length := by
  constructor
  · intro hne
    by_cases hl : i < t.mods.length
    · exact hl
    · exact absurd (h.free i (by omega)).1 hne
  · intro hl
    have r := h.row i t.mods[i] (by simp [hl])
    rw [r.typ]; exact r.ne

theorem Sim.get {env : Env} {n : Node} {t : Table} (h : Sim env n t) {i : Nat} (hi : (n.rows i).typ ≠ []) :
    ∃ m, t.mods[i]? = some m ∧ RowOk True n i m := by
  have hl := (h.registered i).1 hi
  exact ⟨t.mods[i], by simp [hl], h.row i _ (by simp [hl])⟩

/-! ## registrations do not touch other rows -/

/-- only row `tp` may differ -/
structure RowsExcept (tp : Nat) (n n' : Node) : Prop where
  eq : ∀ x, x ≠ tp → n'.rows x = n.rows x

theorem RowsExcept.refl (tp : Nat) (n : Node) : RowsExcept tp n n := ⟨fun _ _ => rfl⟩
theorem RowsExcept.trans {tp : Nat} {a b c : Node} (h : RowsExcept tp a b) (h' : RowsExcept tp b c) :
    RowsExcept tp a c := ⟨fun x hx => (h'.eq x hx).trans (h.eq x hx)⟩
theorem RowsExcept.of_eq {tp : Nat} {a b : Node} (h : b.rows = a.rows) : RowsExcept tp a b := by
  constructor; intro x _; rw [h]
theorem setRow_except (n : Node) (tp : Nat) (f : Row → Row) : RowsExcept tp n (n.setRow tp f) := by
  constructor; intro x hx; simp only [setRow, upd_other _ _ hx]

theorem thenOk_except {tp : Nat} {n0 : Node} {r : Node × Err} {f : Node → Node × Err}
    (h : RowsExcept tp n0 r.1) (hf : ∀ n, RowsExcept tp n0 n → RowsExcept tp n0 (f n).1) :
    RowsExcept tp n0 (thenOk r f).1 := by
  unfold thenOk; split
  · exact hf _ h
  · exact h

theorem forErr_except {tp : Nat} {f : Nat → Node → Node × Err}
    (hf : ∀ i n, RowsExcept tp n (f i n).1) (l : List Nat) (n : Node) :
    RowsExcept tp n (forErr f l n).1 := by
  induction l generalizing n with
  | nil => exact .refl _ _
  | cons i is ih =>
    simp only [forErr]
    exact thenOk_except (hf i n) fun x hx => hx.trans (ih x)

theorem define_rows (env : Env) (n : Node) (o : Nat) (d : ObjDef) : (define env n o d).1.rows = n.rows := by
  unfold define; split
  · rfl
  · simp only; split <;> rfl

theorem txCnfg_rows (env : Env) (n : Node) (tp o nr : Nat) : (txCnfg env n tp o nr).1.rows = n.rows := by
  unfold txCnfg; (repeat' split) <;> rfl

theorem defineCtrl_rows (env : Env) (n : Node) (i nr : Nat) : (defineCtrl env n i nr).1.rows = n.rows := by
  unfold defineCtrl; (repeat' split)
  · rfl
  · rfl
  · rw [define_rows]

theorem forDo_except {tp : Nat} {f : Nat → Node → Node}
    (hf : ∀ i n, RowsExcept tp n (f i n)) (l : List Nat) (n : Node) : RowsExcept tp n (forDo f l n) := by
  induction l generalizing n with
  | nil => exact .refl _ _
  | cons i is ih => exact (hf i n).trans (ih _)

theorem callRx_rows (env : Env) (n : Node) (c : Conv) (can : List Byte) (p d : Nat) :
    (callRx env n c can p d).1.rows = n.rows := by
  unfold callRx; split <;> rfl

theorem syncOff_except (env : Env) (n : Node) (tp : Nat) : RowsExcept tp n (syncOff env n tp) := by
  unfold syncOff
  refine ((((setRow_except n tp _).trans (forDo_except ?_ _ _)).trans (setRow_except _ _ _)).trans
    (forDo_except ?_ _ _)).trans (forDo_except ?_ _ _)
  · intro i n; exact (RowsExcept.of_eq rfl : RowsExcept tp n (n.txOff tp i)).trans (setRow_except _ _ _)
  · intro i n; exact setRow_except _ _ _
  · intro i n; exact .of_eq (callRx_rows ..)

theorem syncOn_except (n : Node) (tp : Nat) : RowsExcept tp n (syncOn n tp) := by
  unfold syncOn
  refine (((setRow_except n tp _).trans (forDo_except ?_ _ _)).trans (setRow_except _ _ _)).trans
    (forDo_except ?_ _ _)
  · intro i n; exact (RowsExcept.of_eq rfl : RowsExcept tp n (n.txOn tp i)).trans (setRow_except _ _ _)
  · intro i n; exact setRow_except _ _ _

theorem setSilentAwake_except (env : Env) (n : Node) (tp st : Nat) :
    RowsExcept tp n (setSilentAwake env n tp st).1 := by
  unfold setSilentAwake
  split
  · simp only
    split
    · refine RowsExcept.trans ?_ (syncOff_except env _ tp)
      exact .of_eq rfl
    · split
      · refine RowsExcept.trans ?_ (syncOn_except _ tp)
        exact .of_eq rfl
      · exact .of_eq rfl
  · exact .refl _ _

theorem finish_except (env : Env) (n : Node) (tp idx nr : Nat) (nrs : List Nat) :
    RowsExcept tp n (finish env n tp idx nr nrs).1 := by
  unfold finish
  refine thenOk_except (thenOk_except (thenOk_except (thenOk_except ?_ ?_) ?_) ?_) ?_
  · exact .of_eq (defineCtrl_rows ..)
  · intro x hx; exact hx.trans (.of_eq (define_rows ..))
  · intro x hx; exact hx.trans (.of_eq (define_rows ..))
  · intro x hx
    split
    · exact hx.trans (.of_eq (define_rows ..))
    · exact hx
  · intro x hx; exact hx.trans (setSilentAwake_except ..)

theorem setModule_except (env : Env) (n : Node) (tp : Nat) (tpl : Row) (nr : Nat) (rx tx : Nat → Nat) :
    RowsExcept tp n (setModule env n tp tpl nr rx tx).1 := by
  unfold setModule
  refine thenOk_except ?_ ?_
  · refine (setRow_except n tp _).trans (forErr_except ?_ _ _)
    intro i x
    exact (setRow_except x tp _).trans (.of_eq (txCnfg_rows ..))
  · intro x hx
    refine thenOk_except ?_ ?_
    · refine hx.trans ((setRow_except x tp _).trans (forErr_except ?_ _ _))
      intro i y
      unfold setRx1
      simp only
      split
      · dsimp only; exact setRow_except y tp _
      · refine thenOk_except ((setRow_except y tp _).trans ((setRow_except _ tp _).trans (.of_eq (define_rows ..)))) ?_
        intro z hz
        refine hz.trans (.of_eq ?_)
        unfold addSlot; split <;> rfl
    · intro y hy
      have := finish_except env y tp y.nrMod (effNr tp nr) ((List.range (tp + 1)).map fun i => (y.rows i).nr)
      generalize finish env y tp y.nrMod (effNr tp nr) ((List.range (tp + 1)).map fun i => (y.rows i).nr) = q at this
      exact hy.trans (this.trans (.of_eq rfl))

/-! ## histories in which all registrations can be completed -/

theorem freeCnt_init {env : Env} (he : EnvOk env) (mem : Nat → List Byte)
    (hok : (Node.init env (boot mem)).2 = E.ok) :
    freeCnt env (Node.init env (boot mem)).1 = env.nObj - (if env.sysObj2 then 5 else 4) := by
  obtain ⟨_, _, _, _, _, _, _, _, a8, _⟩ := init_state env he (boot mem) hok
  have h10 := he.o10
  have e1 : freeCnt env (Node.init env (boot mem)).1 =
      ((List.range env.nObj).filter fun o => decide (o ≠ 0 ∧ o ≠ 2 ∧ ¬ (o = 3 ∧ env.sysObj2 = true) ∧ o ≠ 6 ∧ o ≠ 10)).length := by
    unfold freeCnt
    congr 1
    apply List.filter_congr
    intro o ho
    have := a8 o (by simpa using ho)
    unfold Fixed at this
    rw [Bool.eq_iff_iff]
    simp only [Bool.not_eq_true', decide_eq_true_eq]
    rw [← Bool.not_eq_true, this]
    simp only [not_or, ne_eq]
  rw [e1]
  obtain ⟨k, hk⟩ : ∃ k, env.nObj = 11 + k := ⟨env.nObj - 11, by omega⟩
  rw [hk, List.range_add, List.filter_append, List.length_append]
  have e2 : ((List.range k).map (11 + ·)).filter (fun o => decide (o ≠ 0 ∧ o ≠ 2 ∧ ¬ (o = 3 ∧ env.sysObj2 = true) ∧ o ≠ 6 ∧ o ≠ 10)) =
      (List.range k).map (11 + ·) := by
    rw [List.filter_eq_self]
    intro o ho
    simp only [List.mem_map] at ho
    obtain ⟨a, _, rfl⟩ := ho
    simp; omega
  rw [e2, List.length_map, List.length_range]
  cases env.sysObj2
  · simp [List.range_succ]; omega
  · simp [List.range_succ]; omega

/-- A registration that has enough message objects is completed. -/
theorem Good.add_ok {env : Env} {n : Node} {t : Table} (h : Good env n t) (he : EnvOk env)
    (hhw : ∀ k, env.hwOk k = true) (tpl : Row) (nr : Nat) (rx tx : Nat → Nat)
    (hb : Basic (.add tpl nr rx tx)) (hlt : t.mods.length < env.maxMod)
    (hst : n.silent t.mods.length = 0 ∨ n.silent t.mods.length = 1) (hf : tpl.rxObj + 1 ≤ freeCnt env n) :
    regErr env n tpl nr rx tx = E.ok ∧
    freeCnt env (addModule env n tpl nr rx tx).1 + (tpl.rxObj + 1) = freeCnt env n := by
  have hl : t.mods.length ≠ env.maxMod := by omega
  obtain ⟨hne, ht4, hr4⟩ := hb
  have key : ∃ k, (addModule env n tpl nr rx tx).1 = report env (setModule env n t.mods.length tpl k rx tx).1
        (setModule env n t.mods.length tpl k rx tx).2 ∧
      regErr env n tpl nr rx tx = (setModule env n t.mods.length tpl k rx tx).2 := by
    simp only [addModule, regErr, h.sim.freeRow, hl, if_false]
    split
    · exact ⟨125 + t.mods.length, rfl, rfl⟩
    · exact ⟨nr, rfl, rfl⟩
  obtain ⟨k, e1, e2⟩ := key
  have := setModule_ok (env := env) (i := t.mods.length) (nr := k) (n := n) (tpl := tpl) (rx := rx) (tx := tx)
    hhw he.o10 h.hw.fixed hlt ht4 (by have := h.nrMod; omega) (by have := h.hw.cnt; omega) hst hf
  rw [e2, e1]
  refine ⟨this.1, ?_⟩
  rw [freeCnt_congr env (setModule env n t.mods.length tpl k rx tx).1 _ (by rw [(report_sameHw env _ _).hw])]
  exact this.2

theorem Good.complete {env : Env} (he : EnvOk env) (hhw : ∀ k, env.hwOk k = true) (ops : List Op) :
    (∀ o ∈ ops, Basic o ∧ StateOk o) → ∀ {n : Node} {t : Table}, Good env n t →
    (∀ i, t.awake i = 0 ∨ t.awake i = 1) → (ops.map need).sum ≤ freeCnt env n →
    (∀ i < t.mods.length, Configured n i) →
    specRun env n t ops = Table.run env.maxMod t ops ∧
    (∀ i < (specRun env n t ops).mods.length, Configured (Node.run env n ops) i) := by
  induction ops with
  | nil => intro _ n t _ _ _ hc; exact ⟨rfl, hc⟩
  | cons o os ih =>
    intro hb n t h haw hn hc
    obtain ⟨hbo, hso⟩ := hb o (by simp)
    have hs := h.step he o hbo
    have hreg : regOk env n o = true ∧ ((os.map need).sum ≤ freeCnt env (Node.step env n o).1) ∧
        (∀ i < ((t.step env.maxMod true o).1.mods).length, Configured (Node.step env n o).1 i) := by
      simp only [List.map_cons, List.sum_cons] at hn
      have same : SameHw n (Node.step env n o).1 → (t.step env.maxMod true o).1.mods.length = t.mods.length →
          ((os.map need).sum ≤ freeCnt env (Node.step env n o).1) ∧
          (∀ i < ((t.step env.maxMod true o).1.mods).length, Configured (Node.step env n o).1 i) := by
        intro s e
        refine ⟨?_, ?_⟩
        · rw [freeCnt_congr env n _ (by rw [s.hw])]; omega
        · rw [e]; exact fun i hi => (hc i hi).congr s
      cases o with
      | add tpl nr rx tx =>
        simp only [need] at hn
        by_cases hl : t.mods.length = env.maxMod
        · refine ⟨?_, ?_, ?_⟩
          · simp [regOk, regErr, h.sim.freeRow, hl]
          · simp only [Node.step, addModule, h.sim.freeRow, hl, if_true]; omega
          · simp only [Node.step, addModule, h.sim.freeRow, hl, if_true, Table.step]
            intro i hi; exact hc i (by simpa [hl] using hi)
        · have hlt : t.mods.length < env.maxMod := by have := h.sim.len; omega
          have hok := h.add_ok he hhw tpl nr rx tx hbo hlt (by rw [h.sim.awake]; exact haw _) (by omega)
          have hadd := h.add he tpl nr rx tx hbo
          simp only at hadd
          refine ⟨by simp [regOk, hok.1], by simp only [Node.step]; omega, ?_⟩
          intro i hi
          simp only [Table.step, hl, if_false, List.length_append, List.length_singleton] at hi
          by_cases hi2 : i = t.mods.length
          · rw [hi2]; exact hadd.2.2.2 hlt (by simp [hok.1])
          · exact hadd.2.2.1.conf i (by omega) (hc i (by omega))
      | silentAwake tp st => exact ⟨rfl, same (setSilentAwake_sameHw ..) (step_length (by simp))⟩
      | silentAwakeBy typ nr st => exact ⟨rfl, same (setSilentAwakeBy_sameHw ..) (step_length (by simp))⟩
      | setActive typ => exact ⟨rfl, same (setActive_sameHw ..) (step_length (by simp))⟩
      | setCritical typ => exact ⟨rfl, same (setCritical_sameHw ..) (step_length (by simp))⟩
      | process => exact ⟨rfl, same (process_sameHw ..) rfl⟩
      | changeNr | changeModuleNr | changeTypeAdd | changeType => exact absurd hbo (by simp [Basic])
    obtain ⟨hreg, hf', hc'⟩ := hreg
    rw [hreg] at hs
    have haw' : ∀ i, (t.step env.maxMod true o).1.awake i = 0 ∨ (t.step env.maxMod true o).1.awake i = 1 := by
      have up : ∀ tp st i, st ≤ 1 → upd t.awake tp st i = 0 ∨ upd t.awake tp st i = 1 := by
        intro tp st i hst
        simp only [upd]; split
        · omega
        · exact haw i
      intro i
      cases o with
      | add => simp only [Table.step]; split <;> exact haw i
      | silentAwake tp st =>
        simp only [Table.step]; (repeat' split) <;> first | exact haw i | exact up _ _ _ hso
      | silentAwakeBy typ nr st =>
        simp only [Table.step]; split
        · exact haw i
        · (repeat' split) <;> first | exact haw i | exact up _ _ _ hso
      | setActive => simp only [Table.step]; split <;> exact haw i
      | setCritical => simp only [Table.step]; split <;> exact haw i
      | process => exact haw i
      | changeNr | changeModuleNr | changeTypeAdd | changeType => exact haw i
    have := ih (fun x hx => hb x (by simp [hx])) hs.1 haw' hf' hc'
    simp only [specRun, Table.run, Node.run, hreg]
    exact this

/-! ## frames of a process request belong to positions of the send register -/

theorem sendOne_log (env : Env) (n : Node) (tp obj : Nat) (buf : List Byte) :
    (sendOne env n tp obj buf).1.log = n.log ∨
    ∃ f ok, (sendOne env n tp obj buf).1.log = .frame f ok :: n.log ∧ f.id = n.tx.id tp obj ∧
      f.dlc = n.tx.dlc tp obj := by
  unfold sendOne
  simp only
  split
  · exact .inl rfl
  · generalize callTx env ((n.rows tp).txMainSync obj) (n.mem ((n.rows tp).tx obj)) ((n.rows tp).txDlc obj) buf = r
    split
    · right
      have : ∀ m e, (report env m e).log = m.log := by
        intro m e; unfold report; split <;> rfl
      simp only [this, send]
      exact ⟨_, _, rfl, rfl, rfl⟩
    · left
      unfold report; split <;> rfl

theorem sendAll_log (env : Env) (l : List Nat) : ∀ (n : Node) (buf : List Byte),
    ∃ evs, (sendAll env l (n, buf)).1.log = evs ++ n.log ∧
      ∀ e ∈ evs, ∃ f ok, e = Ev.frame f ok ∧ ∃ p ∈ l, f.id = n.tx.id (p / 4) (p % 4) ∧
        f.dlc = n.tx.dlc (p / 4) (p % 4) := by
  induction l with
  | nil => intro n buf; exact ⟨[], rfl, by simp⟩
  | cons p l ih =>
    intro n buf
    obtain ⟨evs, e1, e2⟩ := ih (sendOne env n (p / 4) (p % 4) buf).1 (sendOne env n (p / 4) (p % 4) buf).2
    simp only [sendOne_tx] at e2
    rcases sendOne_log env n (p / 4) (p % 4) buf with h | ⟨f, ok, h, hid, hd⟩
    · refine ⟨evs, by simp only [sendAll]; rw [e1, h], ?_⟩
      intro e he
      obtain ⟨f, ok, rfl, q, hq, x⟩ := e2 e he
      exact ⟨f, ok, rfl, q, by simp [hq], x⟩
    · refine ⟨evs ++ [.frame f ok], by simp only [sendAll]; rw [e1, h]; simp, ?_⟩
      intro e he
      simp only [List.mem_append, List.mem_singleton] at he
      rcases he with he | rfl
      · obtain ⟨f, ok, rfl, q, hq, x⟩ := e2 e he
        exact ⟨f, ok, rfl, q, by simp [hq], x⟩
      · exact ⟨f, ok, rfl, p, by simp, hid, hd⟩

end Node
end LiCan
