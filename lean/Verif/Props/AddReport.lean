import Verif.Props.NodeTable
import Verif.Lemmas.NodeFree
import Verif.Lemmas.SlaveErrq
/-! # What a registration reports (C06) -/
namespace LiCan
open Spec
namespace Node

/-! ## Nothing but the report touches the error queue -/

def Mute (n n' : Node) : Prop := n'.errq = n.errq

theorem Mute.thenOk {n : Node} {r : Node × Err} {f : Node → Node × Err} (h : Mute n r.1) (hf : ∀ n, Mute n (f n).1) :
    Mute n (thenOk r f).1 := by
  unfold Node.thenOk; split
  · exact (hf _).trans h
  · exact h
theorem Mute.forErr {f : Nat → Node → Node × Err} (hf : ∀ i n, Mute n (f i n).1) (is : List Nat) : ∀ n, Mute n (forErr f is n).1 := by
  induction is with
  | nil => intro n; rfl
  | cons i is ih => intro n; exact (hf i n).thenOk ih

theorem define_mute (env : Env) (n : Node) (o : Nat) (d : ObjDef) : Mute n (define env n o d).1 := by
  obtain ⟨hw, u, e⟩ := define_eq env n o d
  rw [e]; rfl

theorem setSilentAwake_mute (env : Env) (n : Node) (tp st : Nat) : Mute n (setSilentAwake env n tp st).1 := by
  unfold setSilentAwake
  split
  · simp only
    split
    · obtain ⟨m, u, e⟩ := syncOff_eq env { n with silent := upd n.silent tp st, log := .silentCb tp (n.rows tp).nr st :: n.log } tp
      rw [e]; rfl
    · split
      · rw [syncOn_eq]; rfl
      · rfl
  · rfl

theorem finish_mute (env : Env) (n : Node) (tp idx nr : Nat) (nrs : List Nat) : Mute n (finish env n tp idx nr nrs).1 := by
  unfold finish
  simp only
  refine Mute.thenOk (Mute.thenOk (Mute.thenOk (Mute.thenOk ?_ fun n => define_mute ..) fun n => define_mute ..) ?_)
    fun n => setSilentAwake_mute ..
  · unfold defineCtrl
    split
    · rfl
    · split
      · rfl
      · exact Eq.trans (define_mute ..) rfl
  · intro n; split
    · exact define_mute ..
    · rfl

theorem setModule_mute (env : Env) (n : Node) (tp : Nat) (tpl : Row) (nr : Nat) (rx tx : Nat → Nat) :
    Mute n (setModule env n tp tpl nr rx tx).1 := by
  unfold setModule
  simp only
  refine Mute.thenOk ?_ fun n => Mute.thenOk ?_ fun n => ?_
  · unfold setTx
    refine Eq.trans (Mute.forErr (fun i n => ?_) _ _) rfl
    unfold txCnfg
    split
    · rfl
    · split <;> rfl
  · unfold setRx
    simp only
    refine Eq.trans (Mute.forErr (fun i n => ?_) _ _) rfl
    unfold setRx1
    simp only
    split
    · rfl
    · refine Mute.thenOk (Eq.trans (define_mute ..) rfl) ?_
      intro n; unfold addSlot; split <;> rfl
  · have := finish_mute env n tp n.nrMod (effNr tp nr) ((List.range (tp + 1)).map fun i => (n.rows i).nr)
    generalize finish env n tp n.nrMod (effNr tp nr) ((List.range (tp + 1)).map fun i => (n.rows i).nr) = r at *
    exact this

/-! ## Without enough message objects a registration fails with NO_MSG_OBJ_FREE -/

theorem nextFree_zero {env : Env} {n : Node} (h : freeCnt env n = 0) : n.nextFree env = none := by
  unfold nextFree
  rw [List.find?_eq_none]
  intro o ho hu
  have : o ∈ (List.range env.nObj).filter fun o => !n.hw.used o := List.mem_filter.mpr ⟨ho, hu⟩
  unfold freeCnt at h
  rw [List.length_eq_zero_iff.mp h] at this
  cases this

theorem forErr_fails {f : Nat → Node → Node × Err} (e : Err) (he : e ≠ E.ok) (k : Nat) (n : Node)
    (h : (forErr f (List.range k) n).2 = e) (m : Nat) : (forErr f (List.range (k + m)) n).2 = e := by
  induction m with
  | zero => exact h
  | succ m ih =>
    rw [← Nat.add_assoc, forErr_range_succ, thenOk, if_neg (by rw [ih]; exact he)]
    exact ih

theorem setRx_short (env : Env) (n : Node) (i nr : Nat) (hhw : ∀ k, env.hwOk k = true)
    (hsl : n.slots.length + (n.rows i).rxObj ≤ 4 * env.maxMod) (hf : freeCnt env n < (n.rows i).rxObj) :
    (setRx env n i nr).2 = E.noMsgObjFree := by
  unfold Node.setRx
  simp only
  have hrx : ((n.setRow i fun r => { r with rxObjSync := r.rxObj }).rows i).rxObj = (n.rows i).rxObj := by
    simp [setRow]
  rw [hrx]
  obtain ⟨m, hm⟩ := Nat.exists_eq_add_of_le (show freeCnt env n + 1 ≤ (n.rows i).rxObj from hf)
  rw [hm]
  refine forErr_fails _ (by simp) _ _ ?_ m
  rw [forErr_range_succ]
  have key := forErr_ok (f := setRx1 env i nr) (fun k x => freeCnt env x + k = freeCnt env n ∧ x.slots.length = n.slots.length + k)
    (freeCnt env n) (by
      rintro j hj x ⟨p1, p2⟩
      have := setRx1_ok env i nr j x hhw (by omega) (by omega)
      simp only at this
      exact ⟨this.1, by omega, by omega⟩) (n.setRow i fun r => { r with rxObjSync := r.rxObj }) ⟨rfl, rfl⟩
  rw [thenOk, if_pos key.1]
  obtain ⟨-, hz, -⟩ := key
  generalize (forErr (setRx1 env i nr) (List.range (freeCnt env n)) (n.setRow i fun r => { r with rxObjSync := r.rxObj })).1 = y at hz
  have hz : freeCnt env y = 0 := by omega
  unfold setRx1
  simp only
  have hnf : nextFree env (y.setRow i fun r => { r with rxDlcSync := upd r.rxDlcSync (freeCnt env n) (r.rxDlc (freeCnt env n)) }) =
      nextFree env y := rfl
  rw [hnf, nextFree_zero hz]

theorem thenOk_fails {r : Node × Err} {f : Node → Node × Err} {e : Err} (he : e ≠ E.ok) (h : r.2 = e) : (thenOk r f).2 = e := by
  rw [thenOk, if_neg (by rw [h]; exact he)]; exact h

theorem setModule_short {env : Env} {i nr : Nat} {n : Node} {tpl : Row} {rx tx : Nat → Nat}
    (hhw : ∀ k, env.hwOk k = true) (hi : i < env.maxMod) (h4 : tpl.txObj ≤ 4) (hidx : n.nrMod < env.maxMod)
    (hsl : n.slots.length + tpl.rxObj ≤ 4 * env.maxMod) (hf : freeCnt env n < tpl.rxObj + 1) :
    (Node.setModule env n i tpl nr rx tx).2 = 0x5023#16 := by
  have hne : (E.noMsgObjFree : Err) ≠ E.ok := by simp
  simp only [Node.setModule]
  have hset : setTx env (n.fillRow i tpl (effNr i nr) rx tx) i (effNr i nr) = _ :=
    setTx_eq env _ _ _ hi (by simpa [fillRow, setRow] using h4)
  rw [hset, thenOk_ok]
  generalize hn1 : ({ n.fillRow i tpl (effNr i nr) rx tx with
      rows := upd (n.fillRow i tpl (effNr i nr) rx tx).rows i
        { (n.fillRow i tpl (effNr i nr) rx tx).rows i with
          txDlcSync := first ((n.fillRow i tpl (effNr i nr) rx tx).rows i).txObj
            ((n.fillRow i tpl (effNr i nr) rx tx).rows i).txDlc
            ((n.fillRow i tpl (effNr i nr) rx tx).rows i).txDlcSync }
      tx := cnfgTx (n.fillRow i tpl (effNr i nr) rx tx).tx
        ((n.fillRow i tpl (effNr i nr) rx tx).rows i).txDlc i (effNr i nr)
        ((n.fillRow i tpl (effNr i nr) rx tx).rows i).txObj } : Node) = n1
  have b1 : n1.hw = n.hw := by rw [← hn1]; rfl
  have b2 : n1.slots = n.slots := by rw [← hn1]; rfl
  have b4 : n1.nrMod = n.nrMod := by rw [← hn1]; rfl
  have b7 : (n1.rows i).rxObj = tpl.rxObj := by rw [← hn1]; simp [fillRow, setRow]
  have bf : freeCnt env n1 = freeCnt env n := freeCnt_congr env n n1 (by rw [b1])
  by_cases hlt : freeCnt env n < tpl.rxObj
  · exact thenOk_fails hne (setRx_short env n1 i _ hhw (by rw [b2, b7]; exact hsl) (by rw [bf, b7]; exact hlt))
  · have key : (Node.setRx env n1 i (effNr i nr)).2 = E.ok ∧ freeCnt env (Node.setRx env n1 i (effNr i nr)).1 + tpl.rxObj =
        freeCnt env n ∧ (Node.setRx env n1 i (effNr i nr)).1.slots.length = n.slots.length + tpl.rxObj := by
      unfold Node.setRx
      simp only
      have hrx : ((n1.setRow i fun r => { r with rxObjSync := r.rxObj }).rows i).rxObj = tpl.rxObj := by
        simp [setRow, b7]
      rw [hrx]
      refine forErr_ok (fun k x => freeCnt env x + k = freeCnt env n ∧ x.slots.length = n.slots.length + k) _ ?_ _ ?_
      · rintro j hj x ⟨p1, p2⟩
        have := setRx1_ok env i (effNr i nr) j x hhw (by omega) (by omega)
        simp only at this
        exact ⟨this.1, by omega, by omega⟩
      · refine ⟨freeCnt_congr env n _ (by simp only [setRow, b1]), ?_⟩
        simp [setRow, b2]
    have r2 := setRx_rxOnly env n1 i (effNr i nr)
    have hm2 : (Node.setRx env n1 i (effNr i nr)).1.nrMod = n.nrMod := by
      obtain ⟨_, _, _, _, _, _, e⟩ := r2; rw [e]; simp [setRow, b4]
    generalize Node.setRx env n1 i (effNr i nr) = q at key hm2
    obtain ⟨n2, e2⟩ := q
    simp only at key hm2
    obtain ⟨rfl, c1, c2⟩ := key
    rw [thenOk_ok]
    dsimp only
    have hz : freeCnt env n2 = 0 := by omega
    have hd : (Node.defineCtrl env n2 n2.nrMod (effNr i nr)).2 = E.noMsgObjFree := by
      unfold Node.defineCtrl
      rw [if_neg (by omega), nextFree_zero hz]
    unfold finish
    dsimp only
    exact thenOk_fails hne (thenOk_fails hne (thenOk_fails hne (thenOk_fails hne hd)))

end Node

open Node

/-- C06, exactly, for an accepting controller: what a registration puts into the error queue.  Nothing if a message object is free for
each of its receive objects and one for its control object; otherwise one error 0x5023 (NO_MSG_OBJ_FREE), while the value
returned is the same. -/
theorem C06_reported_iff (env : Env) (he : EnvOk env) (n : Node) (h : Reach env n)
    (hhw : ∀ k, env.hwOk k = true) (hq : env.sysErr = true) (tpl : Row) (nr : Nat) (rx tx : Nat → Nat)
    (hb : Basic (.add tpl nr rx tx)) (i : Nat) (hi : i < env.maxMod)
    (hfree : (n.rows i).typ = []) (hfull : ∀ j < i, (n.rows j).typ ≠ [])
    (hst : n.silent i = 0 ∨ n.silent i = 1) :
    let r := addModule env n tpl nr rx tx
    r.1.errq = (if tpl.rxObj + 1 ≤ ((List.range env.nObj).filter fun o => !n.hw.used o).length then n.errq
      else (n.errq.syserrSend env.qSize 0x5023#16 4 (r.1.rows 0).nr).1) ∧
    r.2 = if ∃ j < i, (n.rows j).nr = nr then E.redeclaredNr else E.ok := by
  intro r
  obtain ⟨t, hg, hn⟩ := h.good he
  have hlen : t.mods.length = i := by
    have h1 : ¬ i < t.mods.length := fun hh => (hg.sim.registered i).2 hh hfree
    have h2 : ∀ j < i, j < t.mods.length := fun j hj => (hg.sim.registered j).1 (hfull j hj)
    rcases Nat.eq_zero_or_pos i with rfl | hp
    · omega
    · have := h2 (i - 1) (by omega); omega
  have hl : t.mods.length ≠ env.maxMod := by omega
  have key : ∃ k, r.1 = report env (setModule env n i tpl k rx tx).1 (setModule env n i tpl k rx tx).2 ∧
      r.2 = if ∃ j < i, (n.rows j).nr = nr then E.redeclaredNr else E.ok := by
    show ∃ k, (addModule env n tpl nr rx tx).1 = _ ∧ (addModule env n tpl nr rx tx).2 = _
    simp only [addModule, hg.sim.freeRow, hl, if_false]
    rw [hlen]
    by_cases hx : ∃ j < i, (n.rows j).nr = nr
    · have ha : ((List.range i).any fun j => decide ((n.rows j).nr = nr)) = true := by
        obtain ⟨j, hj, e⟩ := hx
        exact List.any_eq_true.mpr ⟨j, List.mem_range.mpr hj, decide_eq_true e⟩
      rw [if_pos ha, if_pos hx]
      exact ⟨125 + i, rfl, rfl⟩
    · have ha : ¬ ((List.range i).any fun j => decide ((n.rows j).nr = nr)) = true := by
        intro e
        obtain ⟨j, hj, e⟩ := List.any_eq_true.mp e
        exact hx ⟨j, List.mem_range.mp hj, of_decide_eq_true e⟩
      rw [if_neg ha, if_neg hx]
      exact ⟨nr, rfl, rfl⟩
  obtain ⟨k, e1, e2⟩ := key
  refine ⟨?_, e2⟩
  have hidx : n.nrMod < env.maxMod := by have := hg.nrMod; omega
  have hsl : n.slots.length + tpl.rxObj ≤ 4 * env.maxMod := by
    have := hg.hw.cnt
    have h4 : tpl.rxObj ≤ 4 := hb.2.2
    omega
  have hmute := setModule_mute env n i tpl k rx tx
  by_cases hf : tpl.rxObj + 1 ≤ ((List.range env.nObj).filter fun o => !n.hw.used o).length
  · rw [if_pos hf, e1]
    have := setModule_ok (env := env) (i := i) (nr := k) (n := n) (tpl := tpl) (rx := rx) (tx := tx)
      hhw he.o10 hg.hw.fixed hi hb.2.1 hidx hsl hst hf
    rw [this.1]
    show (report env _ E.ok).errq = _
    unfold report
    rw [if_neg (fun e => e.2 rfl)]
    exact hmute
  · rw [if_neg hf, e1]
    have := setModule_short (env := env) (i := i) (nr := k) (n := n) (tpl := tpl) (rx := rx) (tx := tx)
      hhw hi hb.2.1 hidx hsl (Nat.lt_of_not_le hf)
    rw [this, report_rows]
    unfold report
    rw [if_pos ⟨hq, by simp⟩]
    show (ErrQ.syserrSend _ _ _ _ _).1 = _
    rw [hmute]

/-- C06: the registration of `C06_counterexample` meets the hypotheses with too few objects -/
example :
    let n := Node.run exSmall (exInit exSmall) [.add (exTpl 65 4 1) 5 (fun _ => 1) (fun _ => 2)]
    exSmall.sysErr = true ∧ (n.rows 1).typ = [] ∧ (∀ j < 1, (n.rows j).typ ≠ []) ∧ n.silent 1 = 1 ∧
    ((List.range exSmall.nObj).filter fun o => !n.hw.used o).length = 1 ∧ (exTpl 66 2 1).rxObj = 2 ∧
    (addModule exSmall n (exTpl 66 2 1) 9 (fun _ => 3) (fun _ => 4)).1.errq.getCount = n.errq.getCount + 1 := by
  decide +kernel

end LiCan
