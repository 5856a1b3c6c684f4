import Verif.Lemmas.Restart
import Verif.Lemmas.NodeHist
import Verif.Spec.Objects
/-! # Message objects over several initializations -/
namespace LiCan
open Spec

theorem objsNeeded_append (a b : List Nat) : objsNeeded (a ++ b) = objsNeeded a + objsNeeded b := by
  simp [objsNeeded]

theorem layout_append : ∀ (a b free : List Nat) (tp : Nat),
    layout free tp (a ++ b) = layout free tp a ++ layout (free.drop (objsNeeded a)) (tp + a.length) b
  | [], b, free, tp => by simp [layout, objsNeeded]
  | c :: a, b, free, tp => by
    simp only [List.cons_append, layout, layout_append a b, List.append_assoc, List.drop_drop, List.length_cons]
    rw [show objsNeeded (c :: a) = c + 1 + objsNeeded a by simp [objsNeeded]]
    rw [show tp + (a.length + 1) = tp + 1 + a.length by omega]

/-- objects in the layout are the free ones, each at most once -/
theorem layout_sublist : ∀ (cs free : List Nat) (tp : Nat), ((layout free tp cs).map (·.1)).Sublist free
  | [], free, tp => by simp [layout]
  | c :: cs, free, tp => by
    simp only [layout, List.map_append, List.map_map]
    have h1 : (fun o : Nat × Nat => o.1) ∘ (fun o => (o, tp)) = id := rfl
    rw [h1, List.map_id]
    have h2 := (layout_sublist cs (free.drop (c + 1)) (tp + 1))
    have h3 : (free.drop (c + 1)).Sublist (free.drop c) := by
      rw [← List.drop_drop]; exact List.drop_sublist _ _
    have := List.Sublist.append (List.Sublist.refl (free.take c)) (h2.trans h3)
    rwa [List.take_append_drop] at this

theorem layout_length : ∀ (cs free : List Nat) (tp : Nat), (layout free tp cs).length ≤ cs.sum
  | [], free, tp => by simp [layout]
  | c :: cs, free, tp => by
    have := layout_length cs (free.drop (c + 1)) (tp + 1)
    simp only [layout, List.length_append, List.length_map, List.length_take, List.sum_cons]
    omega

namespace Node

/-- unused message objects -/
def frees (env : Env) (n : Node) : List Nat := (List.range env.nObj).filter fun o => !n.hw.used o

theorem frees_length (env : Env) (n : Node) : (frees env n).length = freeCnt env n := rfl

theorem nextFree_head (env : Env) (n : Node) : n.nextFree env = (frees env n).head? := by
  unfold nextFree frees
  rw [List.head?_filter]

theorem frees_congr {env : Env} {n n' : Node} (h : n'.hw.used = n.hw.used) : frees env n' = frees env n := by
  unfold frees; rw [h]

theorem define_hw_used (env : Env) (n : Node) (o : Nat) (d : ObjDef) (ho : o < env.nObj) :
    (define env n o d).1.hw.used = upd n.hw.used o true := by
  rcases define_cases env n o d ho with ⟨_, h⟩ | ⟨_, h⟩ <;> rw [h]

theorem define_frees_used (env : Env) (n : Node) (o : Nat) (d : ObjDef) (ho : o < env.nObj) (hu : n.hw.used o = true) :
    frees env (define env n o d).1 = frees env n := by
  apply frees_congr
  rw [define_hw_used env n o d ho, ← hu]; exact upd_self _ _

theorem define_frees (env : Env) (n : Node) (o : Nat) (t : List Nat) (d : ObjDef) (hf : frees env n = o :: t) :
    frees env (define env n o d).1 = t := by
  have hnd : (o :: t).Nodup := by rw [← hf]; exact List.Pairwise.filter _ List.nodup_range
  have hmem : o ∈ frees env n := by rw [hf]; simp
  have ho : o < env.nObj := by
    unfold frees at hmem; simp only [List.mem_filter, List.mem_range] at hmem; exact hmem.1
  have e : frees env (define env n o d).1 = (frees env n).filter fun x => decide (x ≠ o) := by
    unfold frees
    rw [List.filter_filter, define_hw_used env n o d ho]
    apply List.filter_congr
    intro x _
    by_cases hx : x = o
    · subst hx; simp
    · rw [upd_other _ _ hx]; simp [hx]
  rw [e, hf, List.filter_cons]
  simp only [ne_eq, not_true, decide_false, Bool.false_eq_true, if_false]
  rw [List.filter_eq_self]
  intro x hx
  have := (List.nodup_cons.1 hnd).1
  simp only [decide_eq_true_eq]
  intro e; subst e; exact this hx

/-- one receive object of a new module -/
theorem setRx1_lay (env : Env) (i nr k : Nat) (n : Node) (hhw : ∀ k, env.hwOk k = true) {o : Nat} {t : List Nat}
    (hf : frees env n = o :: t) (hs : n.slots.length < 4 * env.maxMod) :
    let r := Node.setRx1 env i nr k n
    r.2 = E.ok ∧ frees env r.1 = t ∧ r.1.slots = n.slots ++ [(o, i)] ∧
    (∀ x, n.hw.used x = true → r.1.hw.used x = true) ∧ (r.1.rows i).rxMsgObj = upd (n.rows i).rxMsgObj k o ∧
    (r.1.rows i).rxObj = (n.rows i).rxObj ∧ (r.1.rows i).typ = (n.rows i).typ := by
  have ho : n.nextFree env = some o := by rw [nextFree_head, hf]; rfl
  obtain ⟨h1, h2⟩ := nextFree_some ho
  simp only [Node.setRx1]
  have hnf : nextFree env (n.setRow i fun r => { r with rxDlcSync := upd r.rxDlcSync k (r.rxDlc k) }) =
      nextFree env n := rfl
  rw [hnf, ho]
  simp only
  generalize hn1 : ((n.setRow i fun r => { r with rxDlcSync := upd r.rxDlcSync k (r.rxDlc k) }).setRow i
        fun r => { r with rxMsgObj := upd r.rxMsgObj k o }) = n1
  have a1 : n1.hw = n.hw := by rw [← hn1]; rfl
  have a2 : n1.slots = n.slots := by rw [← hn1]; rfl
  have a3 : (n1.rows i).rxMsgObj = upd (n.rows i).rxMsgObj k o ∧ (n1.rows i).rxObj = (n.rows i).rxObj ∧
      (n1.rows i).typ = (n.rows i).typ := by rw [← hn1]; simp [setRow]
  have hok := define_ok env n1 o ⟨syncRxId nr k, 0x7FF#16, (n1.rows i).rxDlc k, .rx true⟩ hhw h1
  have hfc := define_frees env n1 o t ⟨syncRxId nr k, 0x7FF#16, (n1.rows i).rxDlc k, .rx true⟩
    (by rw [← hf]; exact frees_congr (by rw [a1]))
  have hus := fun x => define_used env n1 o x ⟨syncRxId nr k, 0x7FF#16, (n1.rows i).rxDlc k, .rx true⟩ h1
  have hro := define_rows env n1 o ⟨syncRxId nr k, 0x7FF#16, (n1.rows i).rxDlc k, .rx true⟩
  obtain ⟨hw, u, he⟩ := define_eq env n1 o ⟨syncRxId nr k, 0x7FF#16, (n1.rows i).rxDlc k, .rx true⟩
  rw [thenOk, if_pos hok, addSlot]
  have hsl : (define env n1 o ⟨syncRxId nr k, 0x7FF#16, (n1.rows i).rxDlc k, .rx true⟩).1.slots = n.slots := by
    rw [he]; exact a2
  rw [if_pos (by rw [hsl]; exact hs)]
  generalize define env n1 o ⟨syncRxId nr k, 0x7FF#16, (n1.rows i).rxDlc k, .rx true⟩ = q at *
  refine ⟨rfl, hfc, by simp [hsl], fun x hx => hus x (by rw [a1]; exact hx), ?_, ?_, ?_⟩
  · rw [← a3.1, ← hro]
  · rw [← a3.2.1, ← hro]
  · rw [← a3.2.2, ← hro]

theorem filters_frees (env : Env) (nrs : List Nat) (r : Node × Err) (hhw : ∀ k, env.hwOk k = true)
    (hn : 10 < env.nObj) (hfx : ∀ o, Fixed env o → r.1.hw.used o = true) (hr : r.2 = E.ok) :
    (filters env nrs r).2 = E.ok ∧ frees env (filters env nrs r).1 = frees env r.1 ∧
    (∀ o, Fixed env o → (filters env nrs r).1.hw.used o = true) := by
  have step : ∀ (r : Node × Err) o d, r.2 = E.ok → (∀ o, Fixed env o → r.1.hw.used o = true) →
      Fixed env o →
      (thenOk r fun n => define env n o d).2 = E.ok ∧
      frees env (thenOk r fun n => define env n o d).1 = frees env r.1 ∧
      (∀ o', Fixed env o' → (thenOk r fun n => define env n o d).1.hw.used o' = true) := by
    intro r o d h1 h2 h3
    have ho : o < env.nObj := by unfold Fixed at h3; omega
    rw [thenOk, if_pos h1]
    exact ⟨define_ok _ _ _ _ hhw ho, define_frees_used _ _ _ _ ho (h2 o h3),
      fun x hx => define_used _ _ _ _ _ ho (h2 x hx)⟩
  unfold filters
  simp only
  have s1 := step r 6 ⟨0x602, acceptMask nrs, 8, .asyncRx⟩ hr hfx (by simp [Fixed])
  have s2 := step _ 2 ⟨0x002, acceptMask nrs, 8, .rx false⟩ s1.1 s1.2.2 (by simp [Fixed])
  by_cases hs : env.sysObj2 = true
  · have s3 := step _ 3 ⟨0x002, acceptMask nrs, 8, .rx false⟩ s2.1 s2.2.2 (by simp [Fixed, hs])
    simp only [hs, if_true]
    exact ⟨s3.1, by rw [s3.2.1, s2.2.1, s1.2.1], s3.2.2⟩
  · simp only [hs, Bool.false_eq_true, if_false]
    rw [thenOk, if_pos s2.1]
    exact ⟨rfl, by rw [s2.2.1, s1.2.1], s2.2.2⟩

theorem finishHw_slots (env : Env) (n : Node) (idx nr : Nat) (nrs : List Nat) :
    (finishHw env n idx nr nrs).1.slots = n.slots := by
  have step : ∀ (r : Node × Err) (f : Node → Node × Err), r.1.slots = n.slots → (∀ x : Node, (f x).1.slots = x.slots) →
      (thenOk r f).1.slots = n.slots := by
    intro r f h hf; unfold thenOk; split
    · rw [hf, h]
    · exact h
  have hd : ∀ (x : Node) o d, (define env x o d).1.slots = x.slots := by
    intro x o d; obtain ⟨_, _, e⟩ := define_eq env x o d; rw [e]
  have hc : (defineCtrl env n idx nr).1.slots = n.slots := by
    obtain ⟨_, _, _, e⟩ := defineCtrl_eq env n idx nr; rw [e]
  unfold finishHw
  refine step _ _ (step _ _ (step _ _ hc fun x => hd ..) fun x => hd ..) fun x => ?_
  split
  · exact hd ..
  · rfl

/-- A registration with enough message objects and room in the slot table: the objects it takes. -/
theorem setModule_lay {env : Env} {i nr : Nat} {n : Node} {tpl : Row} {rx tx : Nat → Nat}
    (hhw : ∀ k, env.hwOk k = true) (hn2 : 10 < env.nObj)
    (hfx : ∀ o, Fixed env o → n.hw.used o = true)
    (hi : i < env.maxMod) (h4 : tpl.txObj ≤ 4) (hidx : n.nrMod < env.maxMod)
    (hsl : n.slots.length + tpl.rxObj ≤ 4 * env.maxMod)
    (hf : tpl.rxObj + 1 ≤ (frees env n).length) :
    ∀ r : Node, (Node.setModule env n i tpl nr rx tx).1 = r →
    frees env r = (frees env n).drop (tpl.rxObj + 1) ∧
    r.slots = n.slots ++ ((frees env n).take tpl.rxObj).map (fun o => (o, i)) ∧
    (∀ o, Fixed env o → r.hw.used o = true) ∧ r.nrMod = n.nrMod + 1 ∧
    (r.rows i).typ = tpl.typ ∧ (r.rows i).rxObj = tpl.rxObj ∧
    (∀ j < tpl.rxObj, (frees env n)[j]? = some ((r.rows i).rxMsgObj j)) := by
  intro r hr0
  generalize hr : Node.setModule env n i tpl nr rx tx = q0 at hr0
  simp only [Node.setModule] at hr
  have hset : setTx env (n.fillRow i tpl (effNr i nr) rx tx) i (effNr i nr) = _ :=
    setTx_eq env _ _ _ hi (by simpa [fillRow, setRow] using h4)
  rw [hset, thenOk_ok] at hr
  generalize hn1 : ({ n.fillRow i tpl (effNr i nr) rx tx with
      rows := upd (n.fillRow i tpl (effNr i nr) rx tx).rows i
        { (n.fillRow i tpl (effNr i nr) rx tx).rows i with
          txDlcSync := first ((n.fillRow i tpl (effNr i nr) rx tx).rows i).txObj
            ((n.fillRow i tpl (effNr i nr) rx tx).rows i).txDlc
            ((n.fillRow i tpl (effNr i nr) rx tx).rows i).txDlcSync }
      tx := cnfgTx (n.fillRow i tpl (effNr i nr) rx tx).tx
        ((n.fillRow i tpl (effNr i nr) rx tx).rows i).txDlc i (effNr i nr)
        ((n.fillRow i tpl (effNr i nr) rx tx).rows i).txObj } : Node) = n1 at hr
  have b1 : n1.hw = n.hw := by rw [← hn1]; rfl
  have b2 : n1.slots = n.slots := by rw [← hn1]; rfl
  have b4 : n1.nrMod = n.nrMod := by rw [← hn1]; rfl
  have b5 : n1.silent = n.silent := by rw [← hn1]; rfl
  have b7 : (n1.rows i).rxObj = tpl.rxObj ∧ (n1.rows i).typ = tpl.typ := by rw [← hn1]; simp [fillRow, setRow]
  have rx1 : (Node.setRx env n1 i (effNr i nr)).2 = E.ok ∧
      (frees env (Node.setRx env n1 i (effNr i nr)).1 = (frees env n).drop tpl.rxObj ∧
       (Node.setRx env n1 i (effNr i nr)).1.slots = n.slots ++ ((frees env n).take tpl.rxObj).map (fun o => (o, i)) ∧
       (∀ x, n.hw.used x = true → (Node.setRx env n1 i (effNr i nr)).1.hw.used x = true) ∧
       ((Node.setRx env n1 i (effNr i nr)).1.rows i).rxObj = tpl.rxObj ∧
       ((Node.setRx env n1 i (effNr i nr)).1.rows i).typ = tpl.typ ∧
       (∀ j < tpl.rxObj, (frees env n)[j]? = some (((Node.setRx env n1 i (effNr i nr)).1.rows i).rxMsgObj j))) := by
    unfold Node.setRx
    simp only
    have hrx : ((n1.setRow i fun r => { r with rxObjSync := r.rxObj }).rows i).rxObj = tpl.rxObj := by
      simp [setRow, b7]
    rw [hrx]
    refine forErr_ok (fun k x => frees env x = (frees env n).drop k ∧
      x.slots = n.slots ++ ((frees env n).take k).map (fun o => (o, i)) ∧
      (∀ y, n.hw.used y = true → x.hw.used y = true) ∧
      (x.rows i).rxObj = tpl.rxObj ∧ (x.rows i).typ = tpl.typ ∧
      (∀ j < k, (frees env n)[j]? = some ((x.rows i).rxMsgObj j))) _ ?_ _ ?_
    · rintro j hj x ⟨p1, p2, p3, p4, p5, p6⟩
      have hjl : j < (frees env n).length := by omega
      have hd : frees env x = (frees env n)[j] :: (frees env n).drop (j + 1) := by
        rw [p1]; exact List.drop_eq_getElem_cons hjl
      have hlen : x.slots.length < 4 * env.maxMod := by
        rw [p2]; simp only [List.length_append, List.length_map, List.length_take]; omega
      have := setRx1_lay env i (effNr i nr) j x hhw hd hlen
      simp only at this
      obtain ⟨q1, q2, q3, q4, q5, q6, q7⟩ := this
      refine ⟨q1, q2, ?_, fun y hy => q4 y (p3 y hy), q6.trans p4, q7.trans p5, ?_⟩
      · rw [q3, p2, List.append_assoc, List.take_add_one, List.map_append]
        simp [hjl]
      · intro k hk
        rw [q5]
        by_cases e : k = j
        · subst e; simp [hjl]
        · rw [upd_other _ _ e]; exact p6 k (by omega)
    · refine ⟨frees_congr (by simp only [setRow, b1]), by simp [setRow, b2], ?_, by simp [setRow, b7], by simp [setRow, b7],
        fun j hj => by omega⟩
      intro y hy; simpa [setRow, b1] using hy
  have r2 := setRx_rxOnly env n1 i (effNr i nr)
  have sil2 : (Node.setRx env n1 i (effNr i nr)).1.silent = n.silent ∧
      (Node.setRx env n1 i (effNr i nr)).1.nrMod = n.nrMod := by
    obtain ⟨_, _, _, _, _, _, e⟩ := r2; rw [e]; simp [setRow, b5, b4]
  generalize Node.setRx env n1 i (effNr i nr) = q at hr rx1 sil2
  obtain ⟨n2, e2⟩ := q
  simp only at rx1 sil2
  obtain ⟨rfl, c1, c2, c3, c4, c5, c6⟩ := rx1
  rw [thenOk_ok, finish_eq, finishHw_eq] at hr
  have hl : tpl.rxObj < (frees env n).length := by omega
  have hdr : frees env n2 = (frees env n)[tpl.rxObj] :: (frees env n).drop (tpl.rxObj + 1) := by
    rw [c1]; exact List.drop_eq_getElem_cons hl
  have hd : (Node.defineCtrl env n2 n2.nrMod (effNr i nr)).2 = E.ok ∧
      frees env (Node.defineCtrl env n2 n2.nrMod (effNr i nr)).1 = (frees env n).drop (tpl.rxObj + 1) ∧
      (∀ x, n2.hw.used x = true → (Node.defineCtrl env n2 n2.nrMod (effNr i nr)).1.hw.used x = true) := by
    have ho : n2.nextFree env = some (frees env n)[tpl.rxObj] := by rw [nextFree_head, hdr]; rfl
    obtain ⟨h1, _⟩ := nextFree_some ho
    have hm : ¬ env.maxMod ≤ n2.nrMod := by rw [sil2.2]; omega
    simp only [Node.defineCtrl, ho, hm, if_false]
    exact ⟨define_ok _ _ _ _ hhw h1, define_frees _ _ _ _ _ hdr, fun x hx => define_used _ _ _ _ _ h1 hx⟩
  have hfl := filters_frees env ((List.range (i + 1)).map fun i => (n2.rows i).nr)
    (Node.defineCtrl env n2 n2.nrMod (effNr i nr)) hhw hn2
    (fun o ho => hd.2.2 o (c3 o (hfx o ho))) hd.1
  have h3 := finishHw_hwOnly env n2 n2.nrMod (effNr i nr) ((List.range (i + 1)).map fun i => (n2.rows i).nr)
  have h3' := finishHw_slots env n2 n2.nrMod (effNr i nr) ((List.range (i + 1)).map fun i => (n2.rows i).nr)
  rw [finishHw_eq] at h3 h3'
  generalize filters env ((List.range (i + 1)).map fun i => (n2.rows i).nr)
    (Node.defineCtrl env n2 n2.nrMod (effNr i nr)) = q3 at hr hfl h3 h3'
  obtain ⟨n3, e3⟩ := q3
  simp only at hfl h3 h3'
  obtain ⟨rfl, hfl1, hfl2⟩ := hfl
  rw [thenOk_ok] at hr
  have hs3 : n3.silent = n.silent ∧ n3.slots = n2.slots ∧ n3.rows = n2.rows ∧ n3.nrMod = n2.nrMod := by
    refine ⟨?_, h3', ?_, ?_⟩ <;> (obtain ⟨_, _, _, _, e⟩ := h3; rw [e])
    exact sil2.1
  have hs4 := setSilentAwake_sameHw env n3 i (n3.silent i)
  have f := hs4.fields i
  have hq : r = { (setSilentAwake env n3 i (n3.silent i)).1 with nrMod := (setSilentAwake env n3 i (n3.silent i)).1.nrMod + 1 } := by
    rw [← hr0, ← hr]
  subst hq
  refine ⟨?_, ?_, ?_, ?_, ?_, ?_, ?_⟩
  · rw [← hd.2.1, ← hfl1]
    exact frees_congr (by simp only [hs4.hw])
  · simp only [hs4.slots, hs3.2.1, c2]
  · intro o ho; simp only [hs4.hw]; exact hfl2 o ho
  · simp only [hs4.nrMod, hs3.2.2.2, sil2.2]
  · simp only [f.1, hs3.2.2.1, c5]
  · simp only [f.2.2.1, hs3.2.2.1, c4]
  · intro j hj
    rw [c6 j hj]
    simp only [f.2.2.2.2.2.2.2.2.2.2, hs3.2.2.1]

/-! ## One period -/

/-- objects free after an initialization -/
def start (env : Env) : List Nat := freeObjs env.nObj env.sysObj2

theorem start_nodup (env : Env) : (start env).Nodup := List.Pairwise.filter _ List.nodup_range

theorem start_lt {env : Env} {o : Nat} (h : o ∈ start env) : o < env.nObj := by
  simp only [start, freeObjs, List.mem_filter, List.mem_range] at h; exact h.1

/-- what is in the tables after modules with these numbers of receive objects were registered, `base` being the slots
left from before -/
structure Lay (env : Env) (base : List (Nat × Nat)) (cs : List Nat) (n : Node) : Prop where
  slots : n.slots = base ++ layout (start env) 0 cs
  free : frees env n = (start env).drop (objsNeeded cs)
  nr : n.nrMod = cs.length
  reg : ∀ i, (n.rows i).typ = [] ↔ cs.length ≤ i
  rx : ∀ i c, cs[i]? = some c → (n.rows i).rxObj = c ∧
    ∀ j < c, (start env)[objsNeeded (cs.take i) + j]? = some ((n.rows i).rxMsgObj j)
  fixed : ∀ o, Fixed env o → n.hw.used o = true

theorem Lay.same {env : Env} {base : List (Nat × Nat)} {cs : List Nat} {n n' : Node} (h : Lay env base cs n)
    (s : SameHw n n') : Lay env base cs n' := by
  refine ⟨by rw [s.slots, h.slots], ?_, by rw [s.nrMod, h.nr], ?_, ?_, ?_⟩
  · rw [← h.free]; exact frees_congr (by rw [s.hw])
  · intro i; rw [(s.fields i).1]; exact h.reg i
  · intro i c hc; have f := s.fields i
    rw [f.2.2.1, f.2.2.2.2.2.2.2.2.2.2]; exact h.rx i c hc
  · intro o ho; rw [s.hw]; exact h.fixed o ho

theorem Lay.init {env : Env} (he : EnvOk env) {n : Node} (hr : ∀ i, env.maxMod ≤ i → (n.rows i).typ = [])
    (hok : (Node.init env n).2 = E.ok) : Lay env n.slots [] (Node.init env n).1 := by
  obtain ⟨h1, h2, _, _, _, _, _, _, h9, h10, h11, _⟩ := init_state env he n hok
  refine ⟨by simp [layout, h1], ?_, by simp [h2], ?_, by simp, ?_⟩
  · simp only [objsNeeded, List.map_nil, List.sum_nil, List.drop_zero]
    unfold frees start freeObjs
    apply List.filter_congr
    intro o ho
    have := h9 o (List.mem_range.1 ho)
    rw [Bool.eq_iff_iff]
    simp only [Bool.not_eq_true', Bool.or_eq_false_iff, Bool.and_eq_false_iff, beq_eq_false_iff_ne, ne_eq]
    rw [← Bool.not_eq_true, this]
    unfold Fixed
    cases env.sysObj2 <;> simp <;> omega
  · intro i
    simp only [List.length_nil, Nat.zero_le, iff_true]
    by_cases h : i < env.maxMod
    · rw [h10 i h]
    · rw [h11 i (by omega)]; exact hr i (by omega)
  · intro o ho
    exact (h9 o (by have := he.o10; unfold Fixed at ho; omega)).2 ho

theorem Lay.freeRow {env : Env} {base : List (Nat × Nat)} {cs : List Nat} {n : Node} (h : Lay env base cs n)
    (hl : cs.length < env.maxMod) :
    ((List.range env.maxMod).find? fun i => decide ((n.rows i).typ = [])) = some cs.length := by
  rw [List.find?_eq_some_iff_append]
  refine ⟨by simp [h.reg], List.range cs.length, (List.range' (cs.length + 1) (env.maxMod - cs.length - 1)), ?_, ?_⟩
  · rw [List.range_eq_range', List.range_eq_range', show env.maxMod = cs.length + (1 + (env.maxMod - cs.length - 1)) by omega,
      ← List.range'_append_1, ← List.range'_append_1]
    simp
  · intro i hi
    have := List.mem_range.1 hi
    simp only [Bool.not_eq_true', decide_eq_false_iff_not, h.reg]; omega

theorem Lay.add {env : Env} (he : EnvOk env) (hhw : ∀ k, env.hwOk k = true) {base : List (Nat × Nat)} {cs : List Nat}
    {n : Node} (h : Lay env base cs n) {tpl : Row} {nr : Nat} {rx tx : Nat → Nat} (hb : Basic (.add tpl nr rx tx))
    (hl : cs.length < env.maxMod) (hn : objsNeeded (cs ++ [tpl.rxObj]) ≤ (start env).length)
    (hs : n.slots.length + tpl.rxObj ≤ 4 * env.maxMod) :
    Lay env base (cs ++ [tpl.rxObj]) (Node.step env n (.add tpl nr rx tx)).1 := by
  have key : ∃ k, (Node.step env n (.add tpl nr rx tx)).1 = report env (setModule env n cs.length tpl k rx tx).1
        (setModule env n cs.length tpl k rx tx).2 := by
    simp only [Node.step, addModule, h.freeRow hl]
    split
    · exact ⟨125 + cs.length, rfl⟩
    · exact ⟨nr, rfl⟩
  obtain ⟨k, e⟩ := key
  rw [e]
  refine Lay.same ?_ (report_sameHw env _ _)
  have hx := setModule_except env n cs.length tpl k rx tx
  have hne : objsNeeded (cs ++ [tpl.rxObj]) = objsNeeded cs + (tpl.rxObj + 1) := by
    rw [objsNeeded_append]; simp [objsNeeded]
  have := setModule_lay (env := env) (i := cs.length) (nr := k) (n := n) (tpl := tpl) (rx := rx) (tx := tx)
    hhw he.o10 h.fixed hl hb.2.1 (by rw [h.nr]; exact hl) hs
    (by rw [h.free, List.length_drop]; omega) _ rfl
  generalize (setModule env n cs.length tpl k rx tx).1 = m at this hx
  obtain ⟨a1, a2, a3, a4, a5, a6, a7⟩ := this
  refine ⟨?_, ?_, by rw [a4, h.nr]; simp, ?_, ?_, a3⟩
  · rw [a2, h.slots, h.free, layout_append, List.append_assoc]
    simp [layout]
  · rw [a1, h.free, List.drop_drop, hne]
  · intro i
    by_cases hi : i = cs.length
    · subst hi; simp [a5, hb.1]
    · rw [hx.eq i hi, h.reg, List.length_append, List.length_singleton]; omega
  · intro i c hc
    by_cases hi : i = cs.length
    · subst hi
      have : c = tpl.rxObj := by simpa using hc.symm
      subst this
      refine ⟨a6, fun j hj => ?_⟩
      rw [← a7 j hj, h.free, List.getElem?_drop]
      simp
    · have hlt : i < cs.length := by
        have := (List.getElem?_eq_some_iff.1 hc).1
        simp at this; omega
      rw [List.getElem?_append_left hlt] at hc
      rw [hx.eq i hi, List.take_append_of_le_length (by omega)]
      exact h.rx i c hc

theorem rxCounts_add (tpl : Row) (nr : Nat) (rx tx : Nat → Nat) (os : List Op) :
    rxCounts (.add tpl nr rx tx :: os) = tpl.rxObj :: rxCounts os := rfl

theorem Lay.run {env : Env} (he : EnvOk env) (hhw : ∀ k, env.hwOk k = true) {base : List (Nat × Nat)} (ops : List Op) :
    ∀ {cs : List Nat} {n : Node}, Lay env base cs n → (∀ o ∈ ops, Basic o) →
    (cs ++ rxCounts ops).length ≤ env.maxMod → objsNeeded (cs ++ rxCounts ops) ≤ (start env).length →
    base.length + (cs ++ rxCounts ops).sum ≤ 4 * env.maxMod → Lay env base (cs ++ rxCounts ops) (Node.run env n ops) := by
  induction ops with
  | nil => intro cs n h _ _ _ _; simp only [rxCounts, List.filterMap_nil, List.append_nil]; exact h
  | cons o os ih =>
    intro cs n h hb hl hn hs
    have same : SameHw n (Node.step env n o).1 → rxCounts (o :: os) = rxCounts os →
        Lay env base (cs ++ rxCounts (o :: os)) (Node.run env n (o :: os)) := by
      intro s e
      rw [e] at hl hn hs ⊢
      exact ih (h.same s) (fun o ho => hb o (by simp [ho])) hl hn hs
    have hbo := hb o (by simp)
    cases o with
    | add tpl nr rx tx =>
      rw [rxCounts_add] at hl hn hs ⊢
      have e : cs ++ tpl.rxObj :: rxCounts os = (cs ++ [tpl.rxObj]) ++ rxCounts os := by simp
      have hsl := layout_length cs (start env) 0
      have := h.add he hhw hbo (nr := nr) (rx := rx) (tx := tx) (by simp at hl; omega)
        (by rw [e, objsNeeded_append] at hn; omega)
        (by rw [h.slots, List.length_append]; simp at hs; omega)
      rw [e] at hl hn hs ⊢
      exact ih this (fun o ho => hb o (by simp [ho])) hl hn hs
    | silentAwake tp st => exact same (setSilentAwake_sameHw ..) rfl
    | silentAwakeBy typ nr st => exact same (setSilentAwakeBy_sameHw ..) rfl
    | setActive typ => exact same (setActive_sameHw ..) rfl
    | setCritical typ => exact same (setCritical_sameHw ..) rfl
    | process => exact same (process_sameHw ..) rfl
    | changeNr | changeModuleNr | changeTypeAdd | changeType => exact absurd hbo (by simp [Basic])

/-! ## Several periods -/

/-- slots written by the periods -/
def written (env : Env) (eps : List (List Op)) : List (Nat × Nat) :=
  (eps.map fun ops => layout (start env) 0 (rxCounts ops)).flatten

theorem written_append (env : Env) (a b : List (List Op)) : written env (a ++ b) = written env a ++ written env b := by
  simp [written]

theorem written_length (env : Env) : ∀ eps : List (List Op),
    (written env eps).length ≤ (eps.map fun ops => (rxCounts ops).sum).sum
  | [] => by simp [written]
  | ops :: eps => by
    have := written_length env eps
    have h2 := layout_length (rxCounts ops) (start env) 0
    simp only [written, List.map_cons, List.flatten_cons, List.length_append, List.sum_cons] at *
    omega

theorem init_ok (env : Env) (he : EnvOk env) (hhw : ∀ k, env.hwOk k = true) (n : Node) : (Node.init env n).2 = E.ok := by
  have ten := he.o10
  have st : ∀ (q : Node × Err) o d, o < env.nObj → q.2 = E.ok → (thenOk q fun n => define env n o d).2 = E.ok := by
    intro q o d ho hq; rw [thenOk, if_pos hq]; exact define_ok _ _ _ _ hhw ho
  simp only [Node.init]
  refine st _ _ _ (by omega) (st _ _ _ (by omega) ?_)
  by_cases hs : env.sysObj2 = true
  · simp only [hs, if_true]
    exact st _ _ _ (by omega) (st _ _ _ (by omega) (define_ok _ _ _ _ hhw (by omega)))
  · simp only [hs, Bool.false_eq_true, if_false]
    have := st _ 2 ⟨0x002, 0x7FF#16, 8, .rx false⟩ (by omega) (define_ok env
      { n with
        nrMod := 0
        rows := fun i => if i < env.maxMod then { n.rows i with typ := [] } else n.rows i
        hw := { n.hw with
          used := fun i => if i < env.nObj then false else n.hw.used i
          defs := fun i => if i < env.nObj then none else n.hw.defs i } } 0 ⟨0x001, 0x7FF#16, 1, .rx false⟩ hhw (by omega))
    rw [thenOk, if_pos this]

/-- all periods fit -/
def FitsAll (env : Env) (eps : List (List Op)) : Prop :=
  (∀ ops ∈ eps, (∀ o ∈ ops, Basic o) ∧ (rxCounts ops).length ≤ env.maxMod ∧
    objsNeeded (rxCounts ops) ≤ (freeObjs env.nObj env.sysObj2).length) ∧
  (eps.map fun ops => (rxCounts ops).sum).sum ≤ 4 * env.maxMod

theorem lives_lay {env : Env} (he : EnvOk env) (hhw : ∀ k, env.hwOk k = true) (mem : Nat → List Byte) (ops : List Op)
    (eps : List (List Op)) (hf : FitsAll env (eps ++ [ops])) :
    Lay env (written env eps) (rxCounts ops) (Node.lives env (Node.boot mem) (eps ++ [ops])) := by
  have aux : ∀ (eps : List (List Op)), FitsAll env eps → ∀ (done : List (List Op)) (n : Node),
      n.slots = written env done → (∀ i, env.maxMod ≤ i → (n.rows i).typ = []) →
      ((done ++ eps).map fun ops => (rxCounts ops).sum).sum ≤ 4 * env.maxMod →
      (Node.lives env n eps).slots = written env (done ++ eps) ∧
      (∀ i, env.maxMod ≤ i → ((Node.lives env n eps).rows i).typ = []) := by
    intro eps
    induction eps with
    | nil => intro _ done n h1 h2 _; simpa [Node.lives] using ⟨h1, h2⟩
    | cons ops eps ih =>
      intro hf done n h1 h2 h3
      obtain ⟨hb, hl, hn⟩ := hf.1 ops (by simp)
      have hw := written_length env done
      have := (Lay.init he h2 (init_ok env he hhw n)).run he hhw ops hb (by simpa using hl) (by simpa [start] using hn)
        (by rw [h1]; simp at h3 ⊢; omega)
      simp only [List.nil_append] at this
      have hl' : Node.lives env n (ops :: eps) = Node.lives env (Node.run env (Node.init env n).1 ops) eps := rfl
      rw [hl', show done ++ ops :: eps = (done ++ [ops]) ++ eps by simp]
      refine ih ⟨fun o ho => hf.1 o (by simp [ho]), ?_⟩ (done ++ [ops]) _ ?_ ?_ (by simpa using h3)
      · have := hf.2; simp at this ⊢; omega
      · rw [this.slots, h1, written_append]; simp [written]
      · intro i hi; rw [this.reg]; omega
  have hf1 : FitsAll env eps := ⟨fun o ho => hf.1 o (by simp [ho]), by have := hf.2; simp at this ⊢; omega⟩
  obtain ⟨a1, a2⟩ := aux eps hf1 [] (Node.boot mem) rfl (fun _ _ => rfl) (by simpa using hf1.2)
  obtain ⟨hb, hl, hn⟩ := hf.1 ops (by simp)
  have hw := written_length env eps
  have hl' : Node.lives env (Node.boot mem) (eps ++ [ops]) =
      Node.run env (Node.init env (Node.lives env (Node.boot mem) eps)).1 ops := by
    simp [Node.lives, List.foldl_append]
  rw [hl']
  have := (Lay.init he a2 (init_ok env he hhw _)).run he hhw ops hb (by simpa using hl) (by simpa [start] using hn)
    (by rw [a1]; have := hf.2; simp at this ⊢; omega)
  rw [a1] at this
  simpa using this

/-! ## Slots are never taken away -/

/-- slots are only added -/
structure Grows (n n' : Node) : Prop where
  pre : n.slots <+: n'.slots

theorem Grows.refl (n : Node) : Grows n n := ⟨List.prefix_refl _⟩
theorem Grows.trans {a b c : Node} (h : Grows a b) (h' : Grows b c) : Grows a c := ⟨h.pre.trans h'.pre⟩
theorem Grows.of_eq {a b : Node} (h : b.slots = a.slots) : Grows a b := ⟨h ▸ List.prefix_refl _⟩

theorem Grows.thenOk {n : Node} {r : Node × Err} {f : Node → Node × Err} (h : Grows n r.1) (hf : ∀ x, Grows x (f x).1) :
    Grows n (Node.thenOk r f).1 := by
  unfold Node.thenOk; split
  · exact h.trans (hf _)
  · exact h

theorem Grows.forErr {f : Nat → Node → Node × Err} (hf : ∀ i x, Grows x (f i x).1) :
    ∀ (l : List Nat) (n : Node), Grows n (Node.forErr f l n).1
  | [], n => .refl n
  | i :: l, n => by unfold Node.forErr; exact (hf i n).thenOk fun x => Grows.forErr hf l x

theorem txCnfg_slots (env : Env) (n : Node) (tp obj nr : Nat) : (txCnfg env n tp obj nr).1.slots = n.slots := by
  unfold txCnfg; split
  · rfl
  · split <;> rfl

theorem define_slots (env : Env) (n : Node) (o : Nat) (d : ObjDef) : (define env n o d).1.slots = n.slots := by
  obtain ⟨_, _, e⟩ := define_eq env n o d; rw [e]

theorem addSlot_grows (env : Env) (n : Node) (o tp : Nat) : Grows n (addSlot env n o tp).1 := by
  unfold addSlot; split
  · exact ⟨List.prefix_append _ _⟩
  · exact .refl n

theorem setRx1_grows (env : Env) (tp nr i : Nat) (n : Node) : Grows n (setRx1 env tp nr i n).1 := by
  unfold setRx1
  dsimp only
  split
  · exact .of_eq rfl
  · refine Grows.trans (b := _) ?_ ((Grows.of_eq (define_slots ..)).thenOk fun x => addSlot_grows ..)
    exact .of_eq rfl

theorem finish_grows (env : Env) (n : Node) (tp idx nr : Nat) (nrs : List Nat) : Grows n (finish env n tp idx nr nrs).1 := by
  rw [finish_eq]
  exact (Grows.of_eq (finishHw_slots ..)).thenOk fun x => .of_eq (setSilentAwake_sameHw ..).slots

theorem setModule_grows (env : Env) (n : Node) (tp : Nat) (tpl : Row) (nr : Nat) (rx tx : Nat → Nat) :
    Grows n (setModule env n tp tpl nr rx tx).1 := by
  unfold setModule
  dsimp only
  refine Grows.thenOk ?_ fun x => Grows.thenOk ?_ fun x => ?_
  · refine Grows.trans (b := n.fillRow tp tpl (effNr tp nr) rx tx) (.of_eq rfl) (Grows.forErr (fun i x => ?_) _ _)
    exact .of_eq (txCnfg_slots ..)
  · unfold setRx
    exact Grows.trans (b := x.setRow tp fun r => { r with rxObjSync := r.rxObj }) (.of_eq rfl)
      (Grows.forErr (fun i x => setRx1_grows ..) _ _)
  · exact (finish_grows env x tp x.nrMod (effNr tp nr) _).trans (.of_eq rfl)

theorem changeNr_grows (env : Env) (n : Node) (typ : List Byte) (nr act : Nat) : Grows n (changeNr env n typ nr act).1 := by
  unfold changeNr
  split
  · exact .of_eq rfl
  · dsimp only
    refine Grows.thenOk (Grows.trans (b := _) ?_ (Grows.forErr (fun i x => .of_eq (txCnfg_slots ..)) _ _)) fun x =>
      Grows.thenOk (Grows.forErr (fun i x => .of_eq (define_slots ..)) _ _) fun x => finish_grows ..
    exact .of_eq rfl

theorem retx_slots (env : Env) : ∀ (l : List Nat) (r : Node × Err), (retx env l r).1.slots = r.1.slots
  | [], r => rfl
  | j :: l, r => by
    have inner : ∀ (l : List Nat) (r : Node × Err), (l.foldl (fun r i => txCnfg env r.1 j i (r.1.rows j).nr) r).1.slots = r.1.slots := by
      intro l
      induction l with
      | nil => exact fun r => rfl
      | cons i l ih => intro r; rw [List.foldl_cons, ih]; exact txCnfg_slots ..
    unfold retx; split
    · rw [retx_slots env l, inner]
    · exact retx_slots env l r

theorem changeType_grows (env : Env) (n : Node) (tp : Nat) (typ : List Byte) : Grows n (changeType env n tp typ).1 := by
  unfold changeType
  split
  · exact .refl n
  · split
    · dsimp only
      split
      · exact .of_eq ((retx_slots ..).trans rfl)
      · exact .of_eq ((retx_slots ..).trans rfl)
    · exact .refl n

theorem step_grows (env : Env) (n : Node) (o : Op) : Grows n (Node.step env n o).1 := by
  cases o with
  | add tpl nr rx tx =>
    simp only [Node.step, addModule]
    split
    · exact .refl n
    · split <;> exact (setModule_grows ..).trans (.of_eq (report_sameHw env _ _).slots)
  | silentAwake tp st => exact .of_eq (setSilentAwake_sameHw ..).slots
  | silentAwakeBy typ nr st => exact .of_eq (setSilentAwakeBy_sameHw ..).slots
  | setActive typ => exact .of_eq (setActive_sameHw ..).slots
  | setCritical typ => exact .of_eq (setCritical_sameHw ..).slots
  | process => exact .of_eq (process_sameHw ..).slots
  | changeNr typ nr act => exact changeNr_grows ..
  | changeModuleNr tp nr =>
    simp only [Node.step, changeModuleNr]
    split
    · exact changeNr_grows ..
    · split
      · exact (changeNr_grows ..).thenOk fun x => .of_eq (setSilentAwake_sameHw ..).slots
      · exact (changeNr_grows ..).thenOk fun x => .of_eq (setSilentAwake_sameHw ..).slots
      · exact .refl n
  | changeTypeAdd typ tpl rx tx cb =>
    simp only [Node.step, changeTypeAdd]; split
    · exact .of_eq rfl
    · exact .refl n
  | changeType tp typ => exact changeType_grows ..

theorem run_grows (env : Env) : ∀ (ops : List Op) (n : Node), Grows n (Node.run env n ops)
  | [], n => .refl n
  | o :: ops, n => (step_grows env n o).trans (run_grows env ops _)

theorem init_grows (env : Env) (n : Node) : Grows n (Node.init env n).1 := by
  simp only [Node.init]
  refine Grows.thenOk (Grows.thenOk (Grows.thenOk (Grows.thenOk (.of_eq (define_slots ..)) fun x => .of_eq (define_slots ..))
    fun x => ?_) fun x => .of_eq (define_slots ..)) fun x => .of_eq (define_slots ..)
  split
  · exact .of_eq (define_slots ..)
  · exact .refl x

theorem lives_grows (env : Env) : ∀ (eps : List (List Op)) (n : Node), Grows n (Node.lives env n eps)
  | [], n => .refl n
  | ops :: eps, n => ((init_grows env n).trans (run_grows env ops _)).trans (lives_grows env eps _)

theorem Grows.slotRow {n n' : Node} (h : Grows n n') {o r : Nat} (hr : n.slotRow o = some r) : n'.slotRow o = some r := by
  obtain ⟨t, e⟩ := h.pre
  unfold Node.slotRow at hr ⊢
  rw [← e, List.find?_append]
  cases hf : n.slots.find? fun s => decide (bit o &&& bit s.1 ≠ 0) with
  | none => rw [hf] at hr; exact nomatch hr
  | some x => rw [hf] at hr; exact hr

theorem slotRow_rowOf {n : Node} (h : ∀ s ∈ n.slots, s.1 < 32) {o : Nat} (ho : o < 32) : n.slotRow o = rowOf n.slots o := by
  unfold slotRow rowOf
  rw [← List.head?_filter, ← List.head?_filter]
  congr 2
  refine List.filter_congr fun s hs => ?_
  have hs32 := h s hs
  rw [Bool.eq_iff_iff]
  simp only [decide_eq_true_eq, beq_iff_eq]
  constructor
  · intro hne
    obtain ⟨p, hp⟩ := exists_bit hne
    simp only [BitVec.getLsbD_and, Bool.and_eq_true, bit_get _ _ ho, bit_get _ _ hs32, decide_eq_true_eq] at hp
    omega
  · intro e h0
    have := congrArg (fun v : BitVec 32 => v.getLsbD o) h0
    simp [bit_get _ _ ho, e] at this

theorem written_rowOf (env : Env) (o : Nat) : ∀ eps : List (List Op),
    rowOf (written env eps) o = eps.findSome? fun ops => rowOf (layout (start env) 0 (rxCounts ops)) o
  | [] => rfl
  | ops :: eps => by
    have e : written env (ops :: eps) = layout (start env) 0 (rxCounts ops) ++ written env eps := by simp [written]
    have hr := written_rowOf env o eps
    rw [List.findSome?_cons, ← hr, e]
    unfold rowOf
    rw [List.find?_append]
    cases (layout (start env) 0 (rxCounts ops)).find? fun s => s.1 == o <;> rfl

theorem written_lt {env : Env} {eps : List (List Op)} {s : Nat × Nat} (h : s ∈ written env eps) : s.1 < env.nObj := by
  simp only [written, List.mem_flatten, List.mem_map] at h
  obtain ⟨_, ⟨ops, _, rfl⟩, hs⟩ := h
  exact start_lt ((layout_sublist (rxCounts ops) (start env) 0).subset (List.mem_map.2 ⟨s, hs, rfl⟩))

/-- the row of an object is the one of its entry -/
theorem rowOf_mem {l : List (Nat × Nat)} (hn : (l.map (·.1)).Nodup) {o r : Nat} : rowOf l o = some r ↔ (o, r) ∈ l := by
  unfold rowOf
  induction l with
  | nil => simp
  | cons a l ih =>
    rw [List.map_cons, List.nodup_cons] at hn
    rw [List.find?_cons]
    by_cases h : a.1 = o
    · simp only [h, BEq.rfl, Option.map_some, Option.some.injEq, List.mem_cons]
      constructor
      · intro e; left; rw [← e, ← h]
      · rintro (e | e)
        · rw [← e]
        · exact absurd (List.mem_map.2 ⟨(o, r), e, rfl⟩) (by rw [← h] at *; exact hn.1)
    · have : (a.1 == o) = false := by simp [h]
      simp only [this, ih hn.2, List.mem_cons]
      constructor
      · exact .inr
      · rintro (e | e)
        · exact absurd (by rw [← e]) h
        · exact e

theorem layout_nodup (env : Env) (cs : List Nat) : ((layout (start env) 0 cs).map (·.1)).Nodup :=
  (layout_sublist cs (start env) 0).nodup (start_nodup env)

/-- the entry of a receive object -/
theorem layout_mem (cs : List Nat) : ∀ {free : List Nat} {tp i c j o : Nat}, cs[i]? = some c → j < c →
    free[objsNeeded (cs.take i) + j]? = some o → (o, tp + i) ∈ layout free tp cs := by
  intro free tp i c j o hc hj ho
  have hi : i < cs.length := (List.getElem?_eq_some_iff.1 hc).1
  have hci : cs[i] = c := (List.getElem?_eq_some_iff.1 hc).2
  have e : cs = cs.take i ++ c :: cs.drop (i + 1) := by
    rw [← hci, List.getElem_cons_drop, List.take_append_drop]
  rw [e, layout_append, List.mem_append]
  right
  simp only [layout, List.mem_append, List.length_take, Nat.min_eq_left (Nat.le_of_lt hi)]
  left
  simp only [List.mem_map, Prod.mk.injEq, and_true, exists_eq_right]
  rw [← List.getElem?_drop] at ho
  exact List.mem_of_getElem? (i := j) (by rw [List.getElem?_take, if_pos hj]; exact ho)

/-! ## The slot table is full -/

theorem addSlot_full (env : Env) (n : Node) (o tp : Nat) (h : 4 * env.maxMod ≤ n.slots.length) :
    addSlot env n o tp = (n, E.rxDataCnfg) := by
  unfold addSlot; rw [if_neg (Nat.not_lt.2 h)]

theorem setRx1_full (env : Env) (tp nr i : Nat) (n : Node) (h : 4 * env.maxMod ≤ n.slots.length) :
    (setRx1 env tp nr i n).2 ≠ E.ok ∧ (setRx1 env tp nr i n).1.slots = n.slots := by
  unfold setRx1
  dsimp only
  split
  · exact ⟨by simp, rfl⟩
  · next o _ =>
    unfold thenOk
    split
    · dsimp only
      rw [addSlot_full env _ _ _ (by rw [define_slots]; exact h)]
      exact ⟨by simp, define_slots ..⟩
    · next hne => exact ⟨hne, define_slots ..⟩

theorem setRx_full (env : Env) (n : Node) (tp nr : Nat) (h : 4 * env.maxMod ≤ n.slots.length) (hr : 0 < (n.rows tp).rxObj) :
    (setRx env n tp nr).2 ≠ E.ok ∧ (setRx env n tp nr).1.slots = n.slots := by
  unfold setRx
  dsimp only
  have hrx : ((n.setRow tp fun r => { r with rxObjSync := r.rxObj }).rows tp).rxObj = (n.rows tp).rxObj := by simp [setRow]
  rw [hrx]
  obtain ⟨k, hk⟩ := Nat.exists_eq_succ_of_ne_zero (Nat.ne_of_gt hr)
  rw [hk, List.range_succ_eq_map, forErr]
  have := setRx1_full env tp nr 0 (n.setRow tp fun r => { r with rxObjSync := r.rxObj }) h
  rw [thenOk, if_neg this.1]
  exact this

theorem setModule_full (env : Env) (n : Node) (tp : Nat) (tpl : Row) (nr : Nat) (rx tx : Nat → Nat)
    (hi : tp < env.maxMod) (h4 : tpl.txObj ≤ 4) (h : 4 * env.maxMod ≤ n.slots.length) (hr : 0 < tpl.rxObj) :
    (setModule env n tp tpl nr rx tx).2 ≠ E.ok ∧ (setModule env n tp tpl nr rx tx).1.slots = n.slots ∧
    (setModule env n tp tpl nr rx tx).1.nrMod = n.nrMod := by
  simp only [Node.setModule]
  have hset : setTx env (n.fillRow tp tpl (effNr tp nr) rx tx) tp (effNr tp nr) = _ :=
    setTx_eq env _ _ _ hi (by simpa [fillRow, setRow] using h4)
  rw [hset, thenOk_ok]
  generalize hn1 : ({ n.fillRow tp tpl (effNr tp nr) rx tx with
      rows := upd (n.fillRow tp tpl (effNr tp nr) rx tx).rows tp
        { (n.fillRow tp tpl (effNr tp nr) rx tx).rows tp with
          txDlcSync := first ((n.fillRow tp tpl (effNr tp nr) rx tx).rows tp).txObj
            ((n.fillRow tp tpl (effNr tp nr) rx tx).rows tp).txDlc
            ((n.fillRow tp tpl (effNr tp nr) rx tx).rows tp).txDlcSync }
      tx := cnfgTx (n.fillRow tp tpl (effNr tp nr) rx tx).tx
        ((n.fillRow tp tpl (effNr tp nr) rx tx).rows tp).txDlc tp (effNr tp nr)
        ((n.fillRow tp tpl (effNr tp nr) rx tx).rows tp).txObj } : Node) = n1
  have b2 : n1.slots = n.slots := by rw [← hn1]; rfl
  have b4 : n1.nrMod = n.nrMod := by rw [← hn1]; rfl
  have b7 : (n1.rows tp).rxObj = tpl.rxObj := by rw [← hn1]; simp [fillRow, setRow]
  have := setRx_full env n1 tp (effNr tp nr) (by rw [b2]; exact h) (by rw [b7]; exact hr)
  rw [thenOk, if_neg this.1]
  refine ⟨this.1, this.2.trans b2, ?_⟩
  obtain ⟨_, _, _, _, _, _, e⟩ := setRx_rxOnly env n1 tp (effNr tp nr)
  rw [e]; exact b4

end Node
end LiCan
