import Verif.Lemmas.NodeTrace
import Verif.Lemmas.NodeHw
import Verif.Lemmas.NodeGood
/-! # The pointers the stack dereferences and calls are set -/
namespace LiCan
namespace Spec

/-- transmit object `i` of a module has a data pointer and conversions -/
def TxOk (r : Row) (i : Nat) : Prop := r.tx i ≠ 0 ∧ r.txMain i ≠ .null ∧ r.txMainSync i ≠ .null

/-- receive object `i` of a module has conversions -/
def RxOk (r : Row) (i : Nat) : Prop := r.rxMain i ≠ .null ∧ r.rxMainSync i ≠ .null

/-- at most four objects in each direction, those are set -/
structure OwnSet (r : Row) : Prop where
  tx4 : r.txObj ≤ 4
  rx4 : r.rxObj ≤ 4
  tx : ∀ i < r.txObj, TxOk r i
  rx : ∀ i < r.rxObj, RxOk r i

/-- at most four objects in each direction; all four entries of each table are set -/
structure AllSet (r : Row) : Prop where
  tx4 : r.txObj ≤ 4
  rx4 : r.rxObj ≤ 4
  tx : ∀ i < 4, TxOk r i
  rx : ∀ i < 4, RxOk r i

theorem AllSet.own {r : Row} (h : AllSet r) : OwnSet r :=
  ⟨h.tx4, h.rx4, fun i hi => h.tx i (Nat.lt_of_lt_of_le hi h.tx4), fun i hi => h.rx i (Nat.lt_of_lt_of_le hi h.rx4)⟩

instance (r : Row) (i : Nat) : Decidable (TxOk r i) := inferInstanceAs (Decidable (_ ∧ _ ∧ _))
instance (r : Row) (i : Nat) : Decidable (RxOk r i) := inferInstanceAs (Decidable (_ ∧ _))

end Spec
open Spec
namespace Node

variable {env : Env}

/-- objects that are given another purpose without being free -/
def Reused (env : Env) (o : Nat) : Prop := o = 2 ∨ o = 6 ∨ (o = 3 ∧ env.sysObj2 = true)

/-- Nothing is taken away from the rows; new bits of the send register belong to objects of the module. -/
structure Mild (env : Env) (n n' : Node) : Prop where
  ub : n'.ub = n.ub
  slots : n'.slots = n.slots
  chg : n'.chg = n.chg
  typ : ∀ tp, (n'.rows tp).typ = (n.rows tp).typ
  txObj : ∀ tp, (n'.rows tp).txObj = (n.rows tp).txObj
  rxObj : ∀ tp, (n'.rows tp).rxObj = (n.rows tp).rxObj
  msg : ∀ tp, (n'.rows tp).rxMsgObj = (n.rows tp).rxMsgObj
  ptr : ∀ tp, (n'.rows tp).tx = (n.rows tp).tx
  tx : ∀ tp i, TxOk (n.rows tp) i → TxOk (n'.rows tp) i
  rx : ∀ tp i, RxOk (n.rows tp) i → RxOk (n'.rows tp) i
  reg : ∀ k, n'.tx.reg.getLsbD k = true → n.tx.reg.getLsbD k = true ∨ k % 4 < (n.rows (k / 4)).txObj
  used : ∀ o, n.hw.used o = true → n'.hw.used o = true
  defs : ∀ o, n.hw.used o = true → ¬ Reused env o → n'.hw.defs o = n.hw.defs o

theorem Mild.refl (n : Node) : Mild env n n :=
  ⟨rfl, rfl, rfl, fun _ => rfl, fun _ => rfl, fun _ => rfl, fun _ => rfl, fun _ => rfl, fun _ _ h => h, fun _ _ h => h,
   fun _ h => .inl h, fun _ h => h, fun _ _ _ => rfl⟩

theorem Mild.trans {a b c : Node} (h : Mild env a b) (g : Mild env b c) : Mild env a c where
  ub := g.ub.trans h.ub
  slots := g.slots.trans h.slots
  chg := g.chg.trans h.chg
  typ tp := (g.typ tp).trans (h.typ tp)
  txObj tp := (g.txObj tp).trans (h.txObj tp)
  rxObj tp := (g.rxObj tp).trans (h.rxObj tp)
  msg tp := (g.msg tp).trans (h.msg tp)
  ptr tp := (g.ptr tp).trans (h.ptr tp)
  tx tp i k := g.tx tp i (h.tx tp i k)
  rx tp i k := g.rx tp i (h.rx tp i k)
  reg k hk := by
    rcases g.reg k hk with h1 | h1
    · exact h.reg k h1
    · exact .inr (by rw [← h.txObj]; exact h1)
  used o ho := g.used o (h.used o ho)
  defs o ho hr := (g.defs o (h.used o ho) hr).trans (h.defs o ho hr)

/-- what must be unchanged for a step to be mild -/
theorem Mild.of_eq {n n' : Node} (ub : n'.ub = n.ub) (slots : n'.slots = n.slots) (chg : n'.chg = n.chg)
    (rows : n'.rows = n.rows) (reg : n'.tx.reg = n.tx.reg) (hw : n'.hw = n.hw) : Mild env n n' where
  ub := ub
  slots := slots
  chg := chg
  typ tp := by rw [rows]
  txObj tp := by rw [rows]
  rxObj tp := by rw [rows]
  msg tp := by rw [rows]
  ptr tp := by rw [rows]
  tx tp i k := by rw [rows]; exact k
  rx tp i k := by rw [rows]; exact k
  reg k hk := by rw [reg] at hk; exact .inl hk
  used o ho := by rw [hw]; exact ho
  defs o _ _ := by rw [hw]

theorem _root_.LiCan.Plain.mild {n n' : Node} (h : Plain n n') : Mild env n n' := by
  obtain ⟨l, k, q, rfl⟩ := h
  exact .of_eq rfl rfl rfl rfl rfl rfl

theorem Mild.thenOk {n : Node} {r : Node × Err} {f : Node → Node × Err} (h : Mild env n r.1)
    (hf : Mild env r.1 (f r.1).1) : Mild env n (Node.thenOk r f).1 := by
  unfold Node.thenOk; split
  · exact h.trans hf
  · exact h

/-- one row and the send register changed -/
theorem Mild.row {n n' : Node} {tp : Nat} {r : Row} (ub : n'.ub = n.ub) (slots : n'.slots = n.slots)
    (chg : n'.chg = n.chg) (rows : n'.rows = upd n.rows tp r) (hw : n'.hw = n.hw)
    (h1 : r.typ = (n.rows tp).typ) (h2 : r.txObj = (n.rows tp).txObj) (h3 : r.rxObj = (n.rows tp).rxObj)
    (h4 : r.rxMsgObj = (n.rows tp).rxMsgObj) (h7 : r.tx = (n.rows tp).tx) (h5 : ∀ i, TxOk (n.rows tp) i → TxOk r i)
    (h6 : ∀ i, RxOk (n.rows tp) i → RxOk r i)
    (reg : ∀ k, n'.tx.reg.getLsbD k = true → n.tx.reg.getLsbD k = true ∨ k % 4 < (n.rows (k / 4)).txObj) :
    Mild env n n' where
  ub := ub
  slots := slots
  chg := chg
  typ x := by rw [rows]; by_cases e : x = tp <;> simp [upd, e, h1]
  txObj x := by rw [rows]; by_cases e : x = tp <;> simp [upd, e, h2]
  rxObj x := by rw [rows]; by_cases e : x = tp <;> simp [upd, e, h3]
  msg x := by rw [rows]; by_cases e : x = tp <;> simp [upd, e, h4]
  ptr x := by rw [rows]; by_cases e : x = tp <;> simp [upd, e, h7]
  tx x i k := by
    rw [rows]
    by_cases e : x = tp
    · subst e; simp only [upd, if_true]; exact h5 i k
    · simp only [upd, e, if_false]; exact k
  rx x i k := by
    rw [rows]
    by_cases e : x = tp
    · subst e; simp only [upd, if_true]; exact h6 i k
    · simp only [upd, e, if_false]; exact k
  reg := reg
  used o ho := by rw [hw]; exact ho
  defs o _ _ := by rw [hw]

theorem setNr_mild (n : Node) (tp nr : Nat) : Mild env n (n.setRow tp fun r => { r with nr := nr }) :=
  .row rfl rfl rfl rfl rfl rfl rfl rfl rfl rfl (fun _ h => h) (fun _ h => h) fun _ h => .inl h

theorem define_mild {n : Node} {o : Nat} (d : ObjDef) (ho : o < env.nObj)
    (hf : Reused env o ∨ n.hw.used o = false) : Mild env n (define env n o d).1 := by
  have key : ∀ hw : Hw, (∀ x, n.hw.used x = true → hw.used x = true) →
      (∀ x, x ≠ o → hw.defs x = n.hw.defs x) → Mild env n { n with hw := hw } := by
    intro hw h1 h2
    refine ⟨rfl, rfl, rfl, fun _ => rfl, fun _ => rfl, fun _ => rfl, fun _ => rfl, fun _ => rfl, fun _ _ h => h, fun _ _ h => h,
      fun _ h => .inl h, h1, fun x hx hr => h2 x ?_⟩
    rintro rfl
    rcases hf with h | h
    · exact hr h
    · rw [h] at hx; cases hx
  have hu : ∀ x, n.hw.used x = true → upd n.hw.used o true x = true := by
    intro x hx
    by_cases e : x = o
    · simp [upd, e]
    · simp only [upd, e, if_false]; exact hx
  unfold define
  rw [if_neg (by omega)]
  dsimp only
  split
  · refine key _ hu fun x hx => ?_
    simp only [upd, hx, if_false]
  · exact key _ hu fun x hx => rfl

theorem defineCtrl_mild {n : Node} {i nr : Nat} : Mild env n (defineCtrl env n i nr).1 := by
  unfold defineCtrl
  split
  · exact .refl n
  split
  · exact .refl n
  · next o ho =>
    obtain ⟨h1, h2⟩ := nextFree_some ho
    have h0 : Mild env n { n with ctrlObj := upd n.ctrlObj i o } := .of_eq rfl rfl rfl rfl rfl rfl
    exact h0.trans (define_mild _ h1 (.inr h2))

theorem txCnfg_mild {n : Node} {tp obj : Nat} (nr : Nat) (h8 : env.maxMod ≤ 8) (ho : obj < (n.rows tp).txObj) :
    Mild env n (txCnfg env n tp obj nr).1 := by
  unfold txCnfg
  split
  · exact .refl n
  split
  · exact .refl n
  · refine ⟨rfl, rfl, rfl, fun _ => rfl, fun _ => rfl, fun _ => rfl, fun _ => rfl, fun _ => rfl, fun _ _ h => h, fun _ _ h => h,
      fun k hk => ?_, fun _ h => h, fun _ _ _ => rfl⟩
    simp only [BitVec.getLsbD_or, Bool.or_eq_true] at hk
    rcases hk with hk | hk
    · exact .inl hk
    · rw [one_shift_bit obj tp k (by omega)] at hk
      have e : k = 4 * tp + obj := of_decide_eq_true hk
      right
      rw [show k / 4 = tp by omega, show k % 4 = obj by omega]
      exact ho

theorem syncOn_mild {n : Node} {tp : Nat} (ht : tp < 8) (h4 : (n.rows tp).txObj ≤ 4) : Mild env n (syncOn n tp) := by
  rw [syncOn_eq]
  refine .row (r := onRow (n.rows tp)) rfl rfl rfl rfl rfl rfl rfl rfl rfl rfl ?_ ?_ ?_
  · intro i h
    refine ⟨h.1, h.2.1, ?_⟩
    simp only [onRow, first]
    split
    · exact h.2.1
    · exact h.2.2
  · intro i h
    refine ⟨h.1, ?_⟩
    simp only [onRow, first]
    split
    · exact h.1
    · exact h.2
  · intro k hk
    dsimp only at hk
    rw [setBits_bit _ _ _ _ h4 ht] at hk
    simp only [Bool.or_eq_true, decide_eq_true_eq] at hk
    rcases hk with hk | hk
    · exact .inl hk
    · right
      rw [show k / 4 = tp by omega]
      omega

theorem callRx_ub {n : Node} {c : Conv} (hc : c ≠ .null) (can : List Byte) (p dlc : Nat) :
    ∃ m, (callRx env n c can p dlc).1 = { n with mem := m } := by
  cases c with
  | null => exact absurd rfl hc
  | dummy => exact ⟨_, rfl⟩
  | app k => exact ⟨_, rfl⟩

theorem callRx_mild {n : Node} {c : Conv} (hc : c ≠ .null) (can : List Byte) (p dlc : Nat) :
    Mild env n (callRx env n c can p dlc).1 := by
  obtain ⟨m, e⟩ := callRx_ub (env := env) (n := n) hc can p dlc
  rw [e]; exact .of_eq rfl rfl rfl rfl rfl rfl

/-- without the calls of the conversions at the end -/
theorem syncOff_ub {n : Node} {tp : Nat} (h : ∀ i < (n.rows tp).rxObj, (n.rows tp).rxMain i ≠ .null) :
    (syncOff env n tp).ub = n.ub := by
  have hd1 : ∀ (l : List Nat) (f : Nat → Row → Row) (g : Nat → Node → Node),
      (∀ i n, (g i n).ub = n.ub ∧ (g i n).rows = n.rows) →
      (∀ i r, (f i r).rxMain = r.rxMain ∧ (f i r).rxObj = r.rxObj) → ∀ n : Node,
      (forDo (fun i n => (g i n).setRow tp (f i)) l n).ub = n.ub ∧
      ((forDo (fun i n => (g i n).setRow tp (f i)) l n).rows tp).rxMain = (n.rows tp).rxMain ∧
      ((forDo (fun i n => (g i n).setRow tp (f i)) l n).rows tp).rxObj = (n.rows tp).rxObj := by
    intro l f g hg hf
    induction l with
    | nil => exact fun n => ⟨rfl, rfl, rfl⟩
    | cons i l ih =>
      intro n
      obtain ⟨a, b, c⟩ := ih ((g i n).setRow tp (f i))
      simp only [forDo]
      refine ⟨a.trans (hg i n).1, b.trans ?_, c.trans ?_⟩
      · simp only [setRow, upd, if_true, hf, hg]
      · simp only [setRow, upd, if_true, hf, hg]
  have hd2 : ∀ (l : List Nat) (n : Node), (∀ i ∈ l, (n.rows tp).rxMain i ≠ .null) →
      (forDo (fun i n => (n.callRx env ((n.rows tp).rxMain i) zeros8 ((n.rows tp).rx i) ((n.rows tp).rxDlc i)).1) l n).ub = n.ub := by
    intro l
    induction l with
    | nil => exact fun n _ => rfl
    | cons i l ih =>
      intro n hn
      simp only [forDo]
      obtain ⟨m, e⟩ := callRx_ub (env := env) (n := n) (hn i (List.mem_cons_self ..)) zeros8 ((n.rows tp).rx i) ((n.rows tp).rxDlc i)
      rw [e]
      exact ih { n with mem := m } (fun j hj => hn j (List.mem_cons_of_mem _ hj))
  unfold syncOff
  extract_lets n1 n2 n3 n4
  have e1 : n1.ub = n.ub ∧ (n1.rows tp).rxMain = (n.rows tp).rxMain ∧ (n1.rows tp).rxObj = (n.rows tp).rxObj := by
    refine ⟨rfl, ?_, ?_⟩ <;> simp [n1, setRow, upd]
  have e2 := hd1 (List.range (n1.rows tp).txObj)
    (fun i r => { r with txDlcSync := upd r.txDlcSync i 0, txMainSync := upd r.txMainSync i .dummy })
    (fun i n => n.txOff tp i) (fun _ _ => ⟨rfl, rfl⟩) (fun _ _ => ⟨rfl, rfl⟩) n1
  have e3 : n3.ub = n2.ub ∧ (n3.rows tp).rxMain = (n2.rows tp).rxMain ∧ (n3.rows tp).rxObj = (n2.rows tp).rxObj := by
    refine ⟨rfl, ?_, ?_⟩ <;> simp [n3, setRow, upd]
  have e4 := hd1 (List.range (n3.rows tp).rxObj)
    (fun i r => { r with rxDlcSync := upd r.rxDlcSync i 0, rxMainSync := upd r.rxMainSync i .dummy })
    (fun i n => n) (fun _ _ => ⟨rfl, rfl⟩) (fun _ _ => ⟨rfl, rfl⟩) n3
  have m : (n4.rows tp).rxMain = (n.rows tp).rxMain := e4.2.1.trans (e3.2.1.trans (e2.2.1.trans e1.2.1))
  have k : (n4.rows tp).rxObj = (n.rows tp).rxObj := e4.2.2.trans (e3.2.2.trans (e2.2.2.trans e1.2.2))
  rw [hd2]
  · exact e4.1.trans (e3.1.trans (e2.1.trans e1.1))
  · intro i hi
    rw [m]; rw [k] at hi
    exact h i (List.mem_range.1 hi)

theorem syncOff_mild {n : Node} {tp : Nat} (ht : tp < 8) (h : OwnSet (n.rows tp)) : Mild env n (syncOff env n tp) := by
  have hu := syncOff_ub (env := env) (n := n) (tp := tp) fun i hi => (h.rx i hi).1
  obtain ⟨m, u, e⟩ := syncOff_eq env n tp
  rw [e] at hu ⊢
  refine .row (r := offRow (n.rows tp)) hu rfl rfl rfl rfl rfl rfl rfl rfl rfl ?_ ?_ ?_
  · intro i k
    refine ⟨k.1, k.2.1, ?_⟩
    simp only [offRow, first]
    split
    · exact fun h => by cases h
    · exact k.2.2
  · intro i k
    refine ⟨k.1, ?_⟩
    simp only [offRow, first]
    split
    · exact fun h => by cases h
    · exact k.2
  · intro k hk
    dsimp only at hk
    rw [clearBits_bit _ _ _ _ h.tx4 ht] at hk
    simp only [Bool.and_eq_true] at hk
    exact .inl hk.1

theorem setSilentAwake_mild {n : Node} {tp st : Nat} (h8 : env.maxMod ≤ 8) (h : OwnSet (n.rows tp)) :
    Mild env n (setSilentAwake env n tp st).1 := by
  unfold setSilentAwake
  split
  · next ht =>
    have h0 : Mild env n { n with silent := upd n.silent tp st, log := .silentCb tp (n.rows tp).nr st :: n.log } :=
      .of_eq rfl rfl rfl rfl rfl rfl
    dsimp only
    split
    · exact h0.trans (syncOff_mild (by omega) h)
    split
    · exact h0.trans (syncOn_mild (by omega) h.tx4)
    · exact h0
  · exact .refl n

theorem OwnSet.mild {n n' : Node} (m : Mild env n n') {tp : Nat} (h : OwnSet (n.rows tp)) : OwnSet (n'.rows tp) where
  tx4 := by rw [m.txObj]; exact h.tx4
  rx4 := by rw [m.rxObj]; exact h.rx4
  tx i hi := m.tx tp i (h.tx i (by rw [← m.txObj]; exact hi))
  rx i hi := m.rx tp i (h.rx i (by rw [← m.rxObj]; exact hi))

theorem AllSet.mild {n n' : Node} (m : Mild env n n') {tp : Nat} (h : AllSet (n.rows tp)) : AllSet (n'.rows tp) where
  tx4 := by rw [m.txObj]; exact h.tx4
  rx4 := by rw [m.rxObj]; exact h.rx4
  tx i hi := m.tx tp i (h.tx i hi)
  rx i hi := m.rx tp i (h.rx i hi)

theorem finish_mild {n : Node} {tp idx nr : Nat} {nrs : List Nat} (he : EnvOk env) (h : OwnSet (n.rows tp)) :
    Mild env n (finish env n tp idx nr nrs).1 := by
  have h10 := he.o10
  have key : ∀ (a : Node) (o : Nat) (d : ObjDef), Reused env o → Mild env a (define env a o d).1 := by
    intro a o d hr
    refine define_mild d ?_ (.inl hr)
    rcases hr with h | h | h <;> omega
  unfold finish
  dsimp only
  have h1 : Mild env n (defineCtrl env n idx nr).1 := defineCtrl_mild
  generalize defineCtrl env n idx nr = r1 at h1 ⊢
  have h2 : Mild env n (thenOk r1 fun n => define env n 6 ⟨0x602, acceptMask nrs, 8, .asyncRx⟩).1 :=
    h1.thenOk (key _ _ _ (.inr (.inl rfl)))
  generalize thenOk r1 (fun n => define env n 6 ⟨0x602, acceptMask nrs, 8, .asyncRx⟩) = r2 at h2 ⊢
  have h3 : Mild env n (thenOk r2 fun n => define env n 2 ⟨0x002, acceptMask nrs, 8, .rx false⟩).1 :=
    h2.thenOk (key _ _ _ (.inl rfl))
  generalize thenOk r2 (fun n => define env n 2 ⟨0x002, acceptMask nrs, 8, .rx false⟩) = r3 at h3 ⊢
  have h4 : Mild env n (thenOk r3 fun n => if env.sysObj2 then define env n 3 ⟨0x002, acceptMask nrs, 8, .rx false⟩ else (n, E.ok)).1 := by
    refine h3.thenOk ?_
    split
    · next h => exact key _ _ _ (.inr (.inr ⟨rfl, h⟩))
    · exact .refl _
  generalize thenOk r3 (fun n => if env.sysObj2 then define env n 3 ⟨0x002, acceptMask nrs, 8, .rx false⟩ else (n, E.ok)) = r4 at h4 ⊢
  exact h4.thenOk (setSilentAwake_mild he.m8 (OwnSet.mild h4 h))

theorem renumTx_mild {n : Node} {tp nr : Nat} (h8 : env.maxMod ≤ 8) : Mild env n (renumTx env n tp nr).1 := by
  unfold renumTx
  have key : ∀ (l : List Nat) (a : Node), (∀ i ∈ l, i < (a.rows tp).txObj) →
      Mild env a (forErr (fun i n => txCnfg env n tp i nr) l a).1 := by
    intro l
    induction l with
    | nil => exact fun a _ => .refl a
    | cons i l ih =>
      intro a h
      simp only [forErr]
      have h1 : Mild env a (txCnfg env a tp i nr).1 := txCnfg_mild nr h8 (h i (List.mem_cons_self ..))
      exact h1.thenOk (ih _ fun j hj => by rw [h1.txObj]; exact h j (List.mem_cons_of_mem _ hj))
  exact key _ _ fun i hi => List.mem_range.1 hi

theorem setTx_mild {n : Node} {tp nr : Nat} (h8 : env.maxMod ≤ 8) : Mild env n (setTx env n tp nr).1 := by
  unfold setTx
  have key : ∀ (l : List Nat) (a : Node), (∀ i ∈ l, i < (a.rows tp).txObj) →
      Mild env a (forErr (fun i n =>
        txCnfg env (n.setRow tp fun r => { r with txDlcSync := upd r.txDlcSync i (r.txDlc i) }) tp i nr) l a).1 := by
    intro l
    induction l with
    | nil => exact fun a _ => .refl a
    | cons i l ih =>
      intro a h
      simp only [forErr]
      have h0 : Mild env a (a.setRow tp fun r => { r with txDlcSync := upd r.txDlcSync i (r.txDlc i) }) :=
        .row rfl rfl rfl rfl rfl rfl rfl rfl rfl rfl (fun _ h => h) (fun _ h => h) fun _ h => .inl h
      have h1 := h0.trans (txCnfg_mild (env := env) nr h8 (by rw [h0.txObj]; exact h i (List.mem_cons_self ..)))
      exact h1.thenOk (ih _ fun j hj => by rw [h1.txObj]; exact h j (List.mem_cons_of_mem _ hj))
  exact key _ _ fun i hi => List.mem_range.1 hi

theorem retx_mild (h8 : env.maxMod ≤ 8) (js : List Nat) : ∀ r : Node × Err, Mild env r.1 (retx env js r).1 := by
  have key : ∀ (j : Nat) (l : List Nat) (r : Node × Err), (∀ i ∈ l, i < (r.1.rows j).txObj) →
      Mild env r.1 (l.foldl (fun r i => txCnfg env r.1 j i (r.1.rows j).nr) r).1 := by
    intro j l
    induction l with
    | nil => exact fun r _ => .refl _
    | cons i l ih =>
      intro r h
      have h1 := txCnfg_mild (env := env) (r.1.rows j).nr h8 (h i (List.mem_cons_self ..))
      exact h1.trans (ih _ fun j' hj => by rw [h1.txObj]; exact h j' (List.mem_cons_of_mem _ hj))
  induction js with
  | nil => exact fun r => .refl _
  | cons j js ih =>
    intro r
    simp only [retx]
    split
    · exact (key j _ r fun i hi => List.mem_range.1 hi).trans (ih _)
    · exact ih r

/-! ## The process data are sent from the objects in the register -/

theorem sendOne_plain {n : Node} {tp obj : Nat} (h : TxOk (n.rows tp) obj) (buf : List Byte) :
    Plain n (sendOne env n tp obj buf).1 := by
  unfold sendOne
  dsimp only
  rw [if_neg (by intro e; rcases e with e | e; exact h.1 e; exact h.2.2 e)]
  split
  · exact (send_plain ..).trans (report_plain ..)
  · exact report_plain ..

theorem sendProcessData_plain {n n' : Node} (hr : ∀ k, n.tx.reg.getLsbD k = true → TxOk (n.rows (k / 4)) (k % 4))
    (h : n.sendProcessData env = some n') : Plain n n' := by
  have key : ∀ (k : Nat) (s : SendSt), Plain n s.node →
      (∀ j, s.send.getLsbD j = true → n.tx.reg.getLsbD (s.cur + j) = true) →
      ∀ n', sendRun env k s = some n' → Plain n n' := by
    intro k
    induction k with
    | zero =>
      intro s hs _ n' he
      simp only [sendRun] at he
      split at he
      · rw [← Option.some.inj he]; exact hs
      · cases he
    | succ k ih =>
      intro s hs hb n' he
      simp only [sendRun] at he
      split at he
      · rw [← Option.some.inj he]; exact hs
      · next s' hs' =>
        have sh : ∀ j, (s.send >>> 1).getLsbD j = true → n.tx.reg.getLsbD (s.cur + 1 + j) = true := by
          intro j hj
          rw [BitVec.getLsbD_ushiftRight] at hj
          have := hb (1 + j) hj
          rwa [show s.cur + 1 + j = s.cur + (1 + j) by omega]
        simp only [sendStep] at hs'
        split at hs'
        · cases hs'
        split at hs'
        · rw [← Option.some.inj hs'] at he
          exact ih { s with cur := s.cur + 1, send := s.send >>> 1 } hs sh n' he
        split at hs'
        · next hbit =>
          rw [← Option.some.inj hs'] at he
          refine ih _ ?_ sh n' he
          have hx := hr s.cur (by have := hb 0 hbit; rwa [Nat.add_zero] at this)
          rw [← hs.light.rows] at hx
          exact hs.trans (sendOne_plain hx s.buf)
        · rw [← Option.some.inj hs'] at he
          exact ih _ hs hb n' he
  exact key 32 ⟨n.tx.reg, 0, env.garbage, n⟩ (.refl n) (fun j hj => by simpa using hj) n' h

/-! ## Common part of the invariants -/

structure Base (env : Env) (n : Node) : Prop where
  ub : n.ub = false
  own : ∀ tp, OwnSet (n.rows tp)
  msg : ∀ tp i, (n.rows tp).rxMsgObj i < env.nObj
  reg : ∀ k, n.tx.reg.getLsbD k = true → TxOk (n.rows (k / 4)) (k % 4)
  chg : ∀ tp c, n.chg tp = some c → AllSet c.row ∧ c.row.typ ≠ []

theorem Base.mild {n n' : Node} (h : Base env n) (m : Mild env n n') : Base env n' where
  ub := m.ub.trans h.ub
  own tp := OwnSet.mild m (h.own tp)
  msg tp i := by rw [m.msg]; exact h.msg tp i
  reg k hk := by
    refine m.tx _ _ ?_
    rcases m.reg k hk with h1 | h1
    · exact h.reg k h1
    · exact (h.own _).tx _ h1
  chg tp c e := h.chg tp c (by rw [← m.chg]; exact e)

/-! ## Operations on the module table, for any such invariant -/

/-- the rows a number change can find -/
def Known (env : Env) (n : Node) (typ : List Byte) (nr : Nat) : Prop :=
  ∃ tp < env.maxMod, (n.rows tp).typ = typ ∧ (n.rows tp).nr = nr

theorem Known.find {n : Node} {typ : List Byte} {nr : Nat} (h : Known env n typ nr) :
    ∃ tp, n.findTypeNr env typ nr = some tp := by
  obtain ⟨tp, h1, h2⟩ := h
  cases e : n.findTypeNr env typ nr with
  | some tp => exact ⟨tp, rfl⟩
  | none =>
    unfold findTypeNr at e
    rw [List.find?_eq_none] at e
    have := e tp (List.mem_range.2 h1)
    simp only [decide_eq_true_eq] at this
    exact absurd h2 this

/-- the row after a type change -/
def retyped (r c : Row) : Row :=
  { r with typ := c.typ, rxObj := c.rxObj, rxObjSync := c.rxObjSync, rx := c.rx, rxDlc := c.rxDlc, rxMain := c.rxMain
           rxDlcSync := c.rxDlc, rxMainSync := c.rxMainSync, txObj := c.txObj, txObjSync := c.txObjSync
           tx := c.tx, txDlc := c.txDlc, txMain := c.txMain, txDlcSync := c.txDlc, txMainSync := c.txMainSync }

/-- An invariant kept by the parts of the operations; `R tp`: row `tp` may get receive objects;
`T`: templates that may be registered. -/
structure Held (env : Env) (I : Node → Prop) (R : Nat → Node → Prop) (T : Row → Prop) : Prop where
  base : ∀ {n}, I n → Base env n
  mild : ∀ {n n'}, I n → Mild env n n' → I n'
  mildR : ∀ {n n' tp}, R tp n → Mild env n n' → R tp n'
  ren : ∀ {n tp i} (nr : Nat), I n → i < (n.rows tp).rxObj →
    I (define env n ((n.rows tp).rxMsgObj i) ⟨syncRxId nr i, 0x7FF#16, (n.rows tp).rxDlc i, .rx true⟩).1
  rx1 : ∀ {n tp i} (nr : Nat), I n → R tp n → i < (n.rows tp).rxObj →
    I (setRx1 env tp nr i n).1 ∧ R tp (setRx1 env tp nr i n).1
  fill : ∀ {n tp tpl} (nr : Nat) (rx tx : Nat → Nat), I n → (n.rows tp).typ = [] → T { tpl with rx := rx, tx := tx } →
    I (fillRow n tp tpl nr rx tx) ∧ R tp (fillRow n tp tpl nr rx tx)
  retype : ∀ {n tp c}, I n → n.chg tp = some c →
    I { n with rows := upd n.rows tp (retyped (n.rows tp) c.row), tx := { n.tx with reg := 0, last := 0 } }
  chgAdd : ∀ {n tp} (c : ChgType), I n → AllSet c.row → c.row.typ ≠ [] → I { n with chg := upd n.chg tp (some c) }

variable {I : Node → Prop} {R : Nat → Node → Prop} {T : Row → Prop}

theorem Held.renumRx (K : Held env I R T) {n : Node} {tp nr : Nat} (h : I n) : I (renumRx env n tp nr).1 := by
  unfold Node.renumRx
  have key : ∀ (l : List Nat) (a : Node), I a → (∀ i ∈ l, i < (a.rows tp).rxObj) →
      I (forErr (fun i n => define env n ((n.rows tp).rxMsgObj i)
        ⟨syncRxId nr i, 0x7FF#16, (n.rows tp).rxDlc i, .rx true⟩) l a).1 := by
    intro l
    induction l with
    | nil => exact fun a ha _ => ha
    | cons i l ih =>
      intro a ha hl
      simp only [forErr]
      have h1 := K.ren nr ha (hl i (List.mem_cons_self ..))
      have h2 : ∀ o d, (define env a o d).1.rows = a.rows := by
        intro o d
        obtain ⟨hw, u, e⟩ := define_eq env a o d
        rw [e]
      have h3 := h2 ((a.rows tp).rxMsgObj i) ⟨syncRxId nr i, 0x7FF#16, (a.rows tp).rxDlc i, .rx true⟩
      generalize define env a ((a.rows tp).rxMsgObj i) ⟨syncRxId nr i, 0x7FF#16, (a.rows tp).rxDlc i, .rx true⟩ = r at h1 h3 ⊢
      unfold Node.thenOk
      split
      · exact ih _ h1 fun j hj => by rw [h3]; exact hl j (List.mem_cons_of_mem _ hj)
      · exact h1
  exact key _ _ h fun i hi => List.mem_range.1 hi

theorem setRx1_rxObj (tp nr i : Nat) (n : Node) : ((setRx1 env tp nr i n).1.rows tp).rxObj = (n.rows tp).rxObj := by
  unfold setRx1
  dsimp only
  split
  · simp [setRow, upd]
  · next o ho =>
    have h2 : ∀ (a : Node) o d, (define env a o d).1.rows = a.rows := by
      intro a o d
      obtain ⟨hw, u, e⟩ := define_eq env a o d
      rw [e]
    have h3 : ∀ a : Node, (addSlot env a o tp).1.rows = a.rows := by
      intro a
      unfold addSlot; split <;> rfl
    unfold Node.thenOk
    split
    · rw [h3, h2]; simp [setRow, upd]
    · rw [h2]; simp [setRow, upd]

theorem Held.setRx (K : Held env I R T) {n : Node} {tp nr : Nat} (h : I n) (hr : R tp n) :
    I (setRx env n tp nr).1 ∧ R tp (setRx env n tp nr).1 := by
  unfold Node.setRx
  dsimp only
  have m : Mild env n (n.setRow tp fun r => { r with rxObjSync := r.rxObj }) :=
    .row rfl rfl rfl rfl rfl rfl rfl rfl rfl rfl (fun _ h => h) (fun _ h => h) fun _ h => .inl h
  replace h := K.mild h m
  replace hr := K.mildR hr m
  generalize n.setRow tp (fun r => { r with rxObjSync := r.rxObj }) = a at h hr ⊢
  have key : ∀ (l : List Nat) (a : Node), I a → R tp a → (∀ i ∈ l, i < (a.rows tp).rxObj) →
      I (forErr (setRx1 env tp nr) l a).1 ∧ R tp (forErr (setRx1 env tp nr) l a).1 := by
    intro l
    induction l with
    | nil => exact fun a ha hr _ => ⟨ha, hr⟩
    | cons i l ih =>
      intro a ha hr hl
      simp only [forErr]
      have h1 := K.rx1 nr ha hr (hl i (List.mem_cons_self ..))
      have h3 := setRx1_rxObj (env := env) tp nr i a
      generalize setRx1 env tp nr i a = r at h1 h3 ⊢
      unfold Node.thenOk
      split
      · exact ih _ h1.1 h1.2 fun j hj => by rw [h3]; exact hl j (List.mem_cons_of_mem _ hj)
      · exact h1
  exact key _ _ h hr fun i hi => List.mem_range.1 hi

theorem Held.setModule (K : Held env I R T) (he : EnvOk env) {n : Node} {tp : Nat} {tpl : Row} (nr : Nat) (rx tx : Nat → Nat)
    (h : I n) (hf : (n.rows tp).typ = []) (ht : T { tpl with rx := rx, tx := tx }) :
    I (setModule env n tp tpl nr rx tx).1 := by
  unfold Node.setModule
  dsimp only
  obtain ⟨h1, r1⟩ := K.fill (effNr tp nr) rx tx h hf ht
  generalize fillRow n tp tpl (effNr tp nr) rx tx = a at h1 r1 ⊢
  have m2 := setTx_mild (env := env) (n := a) (tp := tp) (nr := effNr tp nr) he.m8
  have h2 := K.mild h1 m2
  have r2 := K.mildR r1 m2
  generalize setTx env a tp (effNr tp nr) = b at h2 r2 ⊢
  unfold Node.thenOk
  split
  · dsimp only
    obtain ⟨h3, r3⟩ := K.setRx (nr := effNr tp nr) h2 r2
    generalize Node.setRx env b.1 tp (effNr tp nr) = c at h3 r3 ⊢
    split
    · dsimp only
      have h4 := K.mild h3 (finish_mild (idx := c.1.nrMod) (nr := effNr tp nr)
        (nrs := (List.range (tp + 1)).map fun i => (c.1.rows i).nr) he ((K.base h3).own tp))
      generalize finish env c.1 tp c.1.nrMod (effNr tp nr) ((List.range (tp + 1)).map fun i => (c.1.rows i).nr) = r at h4 ⊢
      exact K.mild h4 (.of_eq rfl rfl rfl rfl rfl rfl)
    · exact h3
  · exact h2

theorem Held.addModule (K : Held env I R T) (he : EnvOk env) {n : Node} {tpl : Row} (nr : Nat) (rx tx : Nat → Nat)
    (h : I n) (ht : T { tpl with rx := rx, tx := tx }) : I (addModule env n tpl nr rx tx).1 := by
  unfold Node.addModule
  split
  · exact h
  · next i hi =>
    have e : (n.rows i).typ = [] := by
      have := List.find?_some hi
      exact of_decide_eq_true this
    split
    · exact K.mild (K.setModule he _ rx tx h e ht) (report_plain ..).mild
    · exact K.mild (K.setModule he _ rx tx h e ht) (report_plain ..).mild

theorem Held.changeNr (K : Held env I R T) (he : EnvOk env) {n : Node} {typ : List Byte} (nr : Nat) {act : Nat}
    (h : I n) (hk : Known env n typ act) : I (changeNr env n typ nr act).1 := by
  obtain ⟨tp, e⟩ := hk.find
  unfold Node.changeNr
  rw [e]
  dsimp only
  have h1 := K.mild h (setNr_mild n tp nr)
  generalize n.setRow tp (fun r => { r with nr := nr }) = a at h1 ⊢
  have h2 := K.mild h1 (renumTx_mild (env := env) (n := a) (tp := tp) (nr := nr) he.m8)
  generalize renumTx env a tp nr = b at h2 ⊢
  unfold Node.thenOk
  split
  · dsimp only
    have h3 := K.renumRx (tp := tp) (nr := nr) h2
    generalize Node.renumRx env b.1 tp nr = c at h3 ⊢
    split
    · exact K.mild h3 (finish_mild he ((K.base h3).own tp))
    · exact h3
  · exact h2

theorem Held.silentAwake (K : Held env I R T) (he : EnvOk env) {n : Node} (tp st : Nat) (h : I n) :
    I (setSilentAwake env n tp st).1 := K.mild h (setSilentAwake_mild he.m8 ((K.base h).own tp))

theorem Held.changeModuleNr (K : Held env I R T) (he : EnvOk env) {n : Node} {tp : Nat} (nr : Nat) (ht : tp < env.maxMod)
    (h : I n) : I (changeModuleNr env n tp nr).1 := by
  have h1 := K.changeNr he (typ := (n.rows tp).typ) (act := (n.rows tp).nr) nr h ⟨tp, ht, rfl, rfl⟩
  have h2 : ∀ st, I (thenOk (Node.changeNr env n (n.rows tp).typ nr (n.rows tp).nr) fun n => setSilentAwake env n tp st).1 := by
    intro st
    unfold Node.thenOk
    split
    · exact K.silentAwake he tp st h1
    · exact h1
  unfold Node.changeModuleNr
  dsimp only
  split
  · exact h1
  · split
    · exact h2 1
    · exact h2 0
    · exact h

theorem findType_lt {n : Node} {typ : List Byte} {tp : Nat} (h : n.findType env typ = some tp) : tp < env.maxMod :=
  List.mem_range.1 (List.mem_of_find?_eq_some h)

theorem Held.changeType (K : Held env I R T) (he : EnvOk env) {n : Node} (tp : Nat) (typ : List Byte) (h : I n) :
    I (changeType env n tp typ).1 := by
  unfold Node.changeType
  split
  · exact h
  · next c hc =>
    split
    · have h1 := K.retype h hc
      have h2 : ∀ a : Node, I a → I (if c.hasCb then
          (({ (retx env (List.range a.nrMod) (a, E.ok)).1 with log := .typeCb typ :: (retx env (List.range a.nrMod) (a, E.ok)).1.log },
            (retx env (List.range a.nrMod) (a, E.ok)).2) : Node × Err)
          else retx env (List.range a.nrMod) (a, E.ok)).1 := by
        intro a ha
        have h3 := K.mild ha (retx_mild he.m8 (List.range a.nrMod) (a, E.ok))
        generalize retx env (List.range a.nrMod) (a, E.ok) = r at h3 ⊢
        split
        · exact K.mild h3 (.of_eq rfl rfl rfl rfl rfl rfl)
        · exact h3
      exact h2 _ h1
    · exact h

/-- Calls and commands that keep the pointers set.  `T`: what a registered template must satisfy. -/
def OpOk (env : Env) (T : Row → Prop) (n : Node) : Op → Prop
  | .add tpl _ rx tx => T { tpl with rx := rx, tx := tx }
  | .changeTypeAdd _ tpl rx tx _ => AllSet { tpl with rx := rx, tx := tx } ∧ tpl.typ ≠ []
  | .changeNr typ _ act => Known env n typ act
  | .changeModuleNr tp _ => tp < env.maxMod
  | _ => True

theorem Held.op (K : Held env I R T) (he : EnvOk env) {n : Node} {o : Op} (h : I n) (ho : OpOk env T n o) :
    I (n.step env o).1 := by
  cases o with
  | add tpl nr rx tx => exact K.addModule he nr rx tx h ho
  | silentAwake tp st => exact K.silentAwake he tp st h
  | silentAwakeBy typ nr st =>
    simp only [step, setSilentAwakeBy]
    split
    · exact K.silentAwake he _ st h
    · exact h
  | setActive typ =>
    simp only [step, setActive]
    split
    · next tp e => exact K.mild h (syncOn_mild (Nat.lt_of_lt_of_le (findType_lt e) he.m8) ((K.base h).own _).tx4)
    · exact h
  | setCritical typ =>
    simp only [step, setCritical]
    split
    · next tp e => exact K.mild h (syncOff_mild (Nat.lt_of_lt_of_le (findType_lt e) he.m8) ((K.base h).own _))
    · exact h
  | process =>
    simp only [step]
    cases e : sendProcessData env n with
    | none => exact h
    | some n' => exact K.mild h (sendProcessData_plain (K.base h).reg e).mild
  | changeNr typ nr act => exact K.changeNr he nr h ho
  | changeModuleNr tp nr => exact K.changeModuleNr he nr ho h
  | changeTypeAdd typ tpl rx tx cb =>
    simp only [step, changeTypeAdd]
    split
    · exact K.chgAdd ⟨{ tpl with rx := rx, tx := tx }, cb⟩ h ho.1 ho.2
    · exact h
  | changeType tp typ => exact K.changeType he tp typ h

/-- elementary steps other than receiving and initialising -/
theorem Held.nstep (K : Held env I R T) (he : EnvOk env) {P : Node → In → Prop} {n n' : Node} (h : NStep env P n n') (hi : I n)
    (hrecv : ∀ {now obj dlc id tp data}, P n (.frame now obj dlc id data) → n.slotRow obj = some tp →
      (n.rows tp).rxMainSync (syncObjOfId id) ≠ .null)
    (htable : ∀ {o}, P n (.table o) → OpOk env T n o)
    (hinit : ∀ {b}, P n (.init b) → I (n.init env).1) : I n' := by
  cases h with
  | plain h => exact K.mild hi h.mild
  | recv hp hm hs => exact K.mild hi (callRx_mild (hrecv hp hs) _ _ _)
  | send h => exact K.mild hi (sendProcessData_plain (K.base hi).reg h).mild
  | cmd o h =>
    refine K.op he hi ?_
    cases h with
    | silentAwake h hs => trivial
    | changeModuleNr h => exact h
    | changeType h => trivial
  | table o h => exact K.op he hi (htable h)
  | init h => exact hinit h
  | tunnel nr => exact K.mild hi (define_mild _ (by have := he.o10; omega) (.inl (.inr (.inl rfl))))

/-! ## All entries set -/

/-- invariant with templates whose tables are completely filled -/
structure SafeA (env : Env) (n : Node) : Prop extends Base env n where
  rows : ∀ tp, AllSet (n.rows tp) ∨ ((n.rows tp).txObj = 0 ∧ (n.rows tp).rxObj = 0)
  regA : ∀ k, n.tx.reg.getLsbD k = true → AllSet (n.rows (k / 4))
  slotA : ∀ p ∈ n.slots, AllSet (n.rows p.2)

theorem SafeA.mild {n n' : Node} (h : SafeA env n) (m : Mild env n n') : SafeA env n' where
  toBase := h.toBase.mild m
  rows tp := by
    rcases h.rows tp with k | k
    · exact .inl (AllSet.mild m k)
    · exact .inr (by rw [m.txObj, m.rxObj]; exact k)
  regA k hk := by
    refine AllSet.mild m ?_
    rcases m.reg k hk with e | e
    · exact h.regA k e
    · rcases h.rows (k / 4) with a | a
      · exact a
      · rw [a.1] at e; omega
  slotA p hp := by rw [m.slots] at hp; exact AllSet.mild m (h.slotA p hp)

/-- one row changed; the message objects may have changed -/
theorem SafeA.row {n n' : Node} (h : SafeA env n) {tp : Nat} (ub : n'.ub = n.ub) (other : ∀ x, x ≠ tp → n'.rows x = n.rows x)
    (row : AllSet (n.rows tp) → AllSet (n'.rows tp)) (own : OwnSet (n'.rows tp))
    (ok : AllSet (n'.rows tp) ∨ ((n'.rows tp).txObj = 0 ∧ (n'.rows tp).rxObj = 0))
    (msg : ∀ i, (n'.rows tp).rxMsgObj i < env.nObj) (reg : ∀ k, n'.tx.reg.getLsbD k = true → n.tx.reg.getLsbD k = true)
    (chg : ∀ x c, n'.chg x = some c → AllSet c.row ∧ c.row.typ ≠ [])
    (slots : ∀ p ∈ n'.slots, p ∈ n.slots ∨ AllSet (n'.rows p.2)) : SafeA env n' := by
  have al : ∀ x, AllSet (n.rows x) → AllSet (n'.rows x) := by
    intro x hx
    by_cases e : x = tp
    · subst e; exact row hx
    · rw [other x e]; exact hx
  refine ⟨⟨ub.trans h.ub, ?_, ?_, ?_, chg⟩, ?_, fun k hk => al _ (h.regA k (reg k hk)), ?_⟩
  · intro x
    by_cases e : x = tp
    · subst e; exact own
    · rw [other x e]; exact h.own x
  · intro x i
    by_cases e : x = tp
    · subst e; exact msg i
    · rw [other x e]; exact h.msg x i
  · exact fun k hk => (al _ (h.regA k (reg k hk))).tx _ (Nat.mod_lt _ (by decide))
  · intro x
    by_cases e : x = tp
    · subst e; exact ok
    · rw [other x e]; exact h.rows x
  · intro p hp
    rcases slots p hp with k | k
    · exact al _ (h.slotA p k)
    · exact k

theorem define_in {n : Node} {o : Nat} (d : ObjDef) (ho : o < env.nObj) : ∃ hw, (define env n o d).1 = { n with hw := hw } := by
  unfold define
  rw [if_neg (by omega)]
  dsimp only
  split
  · exact ⟨_, rfl⟩
  · exact ⟨_, rfl⟩

theorem SafeA.hw {n : Node} (h : SafeA env n) (hw : Hw) : SafeA env { n with hw := hw } :=
  ⟨⟨h.ub, h.own, h.msg, h.reg, h.chg⟩, h.rows, h.regA, h.slotA⟩

theorem SafeA.define {n : Node} (h : SafeA env n) {o : Nat} (d : ObjDef) (ho : o < env.nObj) : SafeA env (define env n o d).1 := by
  obtain ⟨hw, e⟩ := define_in (env := env) (n := n) d ho
  rw [e]; exact h.hw hw

/-- templates for the invariant -/
def TplA (env : Env) (r : Row) : Prop := AllSet r ∧ ∀ i, r.rxMsgObj i < env.nObj

theorem heldA : Held env (SafeA env) (fun tp n => AllSet (n.rows tp)) (TplA env) where
  base h := h.toBase
  mild h m := h.mild m
  mildR h m := AllSet.mild m h
  ren nr h _ := h.define _ (h.msg _ _)
  rx1 := by
    intro n tp i nr h hr hi
    unfold setRx1
    dsimp only
    have m : Mild env n (n.setRow tp fun r => { r with rxDlcSync := upd r.rxDlcSync i (r.rxDlc i) }) :=
      .row rfl rfl rfl rfl rfl rfl rfl rfl rfl rfl (fun _ h => h) (fun _ h => h) fun _ h => .inl h
    replace h := h.mild m
    replace hr := AllSet.mild m hr
    generalize (n.setRow tp fun r => { r with rxDlcSync := upd r.rxDlcSync i (r.rxDlc i) }) = a at h hr ⊢
    split
    · exact ⟨h, hr⟩
    · next o ho =>
      obtain ⟨h1, -⟩ := nextFree_some ho
      have e : (a.setRow tp fun r => { r with rxMsgObj := upd r.rxMsgObj i o }).rows tp =
          { a.rows tp with rxMsgObj := upd (a.rows tp).rxMsgObj i o } := by simp [setRow, upd]
      have al : AllSet ((a.setRow tp fun r => { r with rxMsgObj := upd r.rxMsgObj i o }).rows tp) := by
        rw [e]; exact ⟨hr.tx4, hr.rx4, hr.tx, hr.rx⟩
      have h2 : SafeA env (a.setRow tp fun r => { r with rxMsgObj := upd r.rxMsgObj i o }) := by
        refine h.row (tp := tp) rfl (fun x hx => by simp [setRow, upd, hx]) (fun _ => al) al.own (.inl al) ?_
          (fun _ h => h) h.chg fun _ h => .inl h
        intro j
        rw [e]
        simp only [upd]
        split
        · exact h1
        · exact h.msg tp j
      generalize (a.setRow tp fun r => { r with rxMsgObj := upd r.rxMsgObj i o }) = b at h2 al ⊢
      have h3 := h2.define ⟨syncRxId nr i, 0x7FF#16, (b.rows tp).rxDlc i, .rx true⟩ h1
      have al3 : AllSet ((Node.define env b o ⟨syncRxId nr i, 0x7FF#16, (b.rows tp).rxDlc i, .rx true⟩).1.rows tp) := by
        obtain ⟨hw, e⟩ := define_in (env := env) (n := b) ⟨syncRxId nr i, 0x7FF#16, (b.rows tp).rxDlc i, .rx true⟩ h1
        rw [e]; exact al
      generalize Node.define env b o ⟨syncRxId nr i, 0x7FF#16, (b.rows tp).rxDlc i, .rx true⟩ = c at h3 al3 ⊢
      unfold Node.thenOk
      split
      · dsimp only
        unfold addSlot
        split
        · refine ⟨?_, al3⟩
          refine h3.row (tp := tp) rfl (fun _ _ => rfl) (fun h => h) (h3.own tp) (h3.rows tp) (h3.msg tp) (fun _ h => h) h3.chg ?_
          intro p hp
          rcases List.mem_append.1 hp with hp | hp
          · exact .inl hp
          · rw [List.mem_singleton.1 hp]; exact .inr al3
        · exact ⟨h3, al3⟩
      · exact ⟨h3, al3⟩
  fill := by
    intro n tp tpl nr rx tx h _ ht
    have e : (fillRow n tp tpl nr rx tx).rows tp = { tpl with nr := nr, rx := rx, tx := tx, txObjSync := tpl.txObj } := by
      simp [fillRow, setRow, upd]
    have al : AllSet ((fillRow n tp tpl nr rx tx).rows tp) := by
      rw [e]; exact ⟨ht.1.tx4, ht.1.rx4, ht.1.tx, ht.1.rx⟩
    refine ⟨?_, al⟩
    refine h.row (tp := tp) rfl (fun x hx => by simp [fillRow, setRow, upd, hx]) (fun _ => al) al.own (.inl al) ?_
      (fun _ h => h) h.chg fun _ h => .inl h
    rw [e]; exact ht.2
  retype := by
    intro n tp c h hc
    have al := (h.chg tp c hc).1
    have e : upd n.rows tp (retyped (n.rows tp) c.row) tp = retyped (n.rows tp) c.row := by simp [upd]
    have al2 : AllSet (upd n.rows tp (retyped (n.rows tp) c.row) tp) := by
      rw [e]; exact ⟨al.tx4, al.rx4, al.tx, al.rx⟩
    refine h.row (tp := tp) rfl (fun x hx => by simp [upd, hx]) (fun _ => al2) al2.own (.inl al2) ?_ ?_ h.chg fun _ h => .inl h
    · dsimp only; rw [e]; exact h.msg tp
    · intro k hk; simp at hk
  chgAdd := by
    intro n tp c h h1 h2
    refine h.row (tp := tp) rfl (fun _ _ => rfl) (fun h => h) (h.own tp) (h.rows tp) (h.msg tp) (fun _ h => h) ?_ fun _ h => .inl h
    intro x c' e
    dsimp only at e
    by_cases hx : x = tp
    · simp only [upd, hx, if_true, Option.some.injEq] at e; subst e; exact ⟨h1, h2⟩
    · simp only [upd, hx, if_false] at e; exact h.chg x c' e

theorem SafeA.boot (he : EnvOk env) (mem : Nat → List Byte) : SafeA env (boot mem) where
  ub := rfl
  own _ := ⟨Nat.zero_le _, Nat.zero_le _, fun i hi => absurd hi (Nat.not_lt_zero i), fun i hi => absurd hi (Nat.not_lt_zero i)⟩
  msg _ _ := by have := he.o10; show 0 < env.nObj; omega
  reg k hk := by simp [Node.boot] at hk
  chg _ _ h := by cases h
  rows _ := .inr ⟨rfl, rfl⟩
  regA k hk := by simp [Node.boot] at hk
  slotA p hp := by cases hp

theorem SafeA.init (he : EnvOk env) {n : Node} (h : SafeA env n) : SafeA env (n.init env).1 := by
  have h10 := he.o10
  have key : ∀ (r : Node × Err) (f : Node → Node × Err), SafeA env r.1 → (∀ a, SafeA env a → SafeA env (f a).1) →
      SafeA env (Node.thenOk r f).1 := by
    intro r f hr hf
    unfold Node.thenOk
    split
    · exact hf _ hr
    · exact hr
  have ro : ∀ i, (∀ (A : Row → Prop), (∀ r t, A r → A { r with typ := t }) → A (n.rows i) →
      A (if i < env.maxMod then { n.rows i with typ := [] } else n.rows i)) := by
    intro i A hA h
    split
    · exact hA _ _ h
    · exact h
  have hal : ∀ (r : Row) t, AllSet r → AllSet { r with typ := t } := fun r t h => ⟨h.tx4, h.rx4, h.tx, h.rx⟩
  unfold Node.init
  extract_lets hw0 n0 r1 r2 r3 r4
  have h0 : SafeA env n0 :=
    ⟨⟨h.ub, fun i => ro i OwnSet (fun r t h => ⟨h.tx4, h.rx4, h.tx, h.rx⟩) (h.own i),
      fun i j => ro i (fun r => r.rxMsgObj j < env.nObj) (fun _ _ h => h) (h.msg i j),
      fun k hk => ro _ (fun r => TxOk r (k % 4)) (fun _ _ h => h) (h.reg k hk), h.chg⟩,
     fun i => ro i (fun r => AllSet r ∨ (r.txObj = 0 ∧ r.rxObj = 0)) (fun r t h => h.imp (hal r t) id) (h.rows i),
     fun k hk => ro _ AllSet hal (h.regA k hk), fun p hp => ro _ AllSet hal (h.slotA p hp)⟩
  have h1 : SafeA env r1.1 := h0.define _ (by omega)
  have h2 : SafeA env r2.1 := key _ _ h1 fun a ha => ha.define _ (by omega)
  have h3 : SafeA env r3.1 := key _ _ h2 fun a ha => by
    split
    · exact ha.define _ (by omega)
    · exact ha
  have h4 : SafeA env r4.1 := key _ _ h3 fun a ha => ha.define _ (by omega)
  exact key _ _ h4 fun a ha => ha.define _ (by omega)

/-! ## Only the objects of the module set -/

/-- invariant with templates whose own objects are set -/
structure SafeB (env : Env) (n : Node) : Prop extends Base env n where
  u0 : n.hw.used 0 = true
  ur : ∀ o, Reused env o → n.hw.used o = true
  slot : ∀ p ∈ n.slots, n.hw.used p.1 = true ∧ p.1 ≠ 0 ∧ ¬ Reused env p.1 ∧ (n.rows p.2).typ ≠ [] ∧
    ∀ d, n.hw.defs p.1 = some d → d.mask = 0x7FF#16 ∧ d.id < 65536 ∧ RxOk (n.rows p.2) (d.id % 4)
  msgo : ∀ tp i, (n.rows tp).rxMsgObj i ≠ 0 → n.hw.used ((n.rows tp).rxMsgObj i) = true ∧
    ∀ p ∈ n.slots, p.1 = (n.rows tp).rxMsgObj i → p.2 = tp
  fresh : ∀ tp, (n.rows tp).typ = [] → (∀ i, (n.rows tp).tx i = 0) ∧ ∀ i, (n.rows tp).rxMsgObj i = 0

theorem SafeB.mild {n n' : Node} (h : SafeB env n) (m : Mild env n n') : SafeB env n' where
  toBase := h.toBase.mild m
  u0 := m.used 0 h.u0
  ur o ho := m.used o (h.ur o ho)
  slot p hp := by
    rw [m.slots] at hp
    obtain ⟨a, b, c, d, e⟩ := h.slot p hp
    refine ⟨m.used _ a, b, c, by rw [m.typ]; exact d, fun x hx => ?_⟩
    rw [m.defs _ a c] at hx
    obtain ⟨e1, e2, e3⟩ := e x hx
    exact ⟨e1, e2, m.rx _ _ e3⟩
  msgo tp i hi := by
    rw [m.msg] at hi ⊢
    obtain ⟨a, b⟩ := h.msgo tp i hi
    exact ⟨m.used _ a, by rw [m.slots]; exact b⟩
  fresh tp ht := by
    rw [m.typ] at ht
    rw [m.ptr, m.msg]
    exact h.fresh tp ht

theorem syncRxId_obj (nr i : Nat) (hi : i < 4) : syncRxId nr i < 65536 ∧ syncRxId nr i % 4 = i := by
  unfold syncRxId idOf
  omega

/-- a message object is programmed -/
theorem SafeB.define {n : Node} (h : SafeB env n) {o : Nat} (d : ObjDef) (ho : o < env.nObj)
    (hd : ∀ p ∈ n.slots, p.1 = o → d.mask = 0x7FF#16 ∧ d.id < 65536 ∧ RxOk (n.rows p.2) (d.id % 4)) :
    SafeB env (define env n o d).1 := by
  have hu : ∀ x, n.hw.used x = true → upd n.hw.used o true x = true := by
    intro x hx
    by_cases e : x = o
    · simp [upd, e]
    · simp only [upd, e, if_false]; exact hx
  have key : ∀ hw : Hw, (∀ x, n.hw.used x = true → hw.used x = true) →
      (∀ x y, hw.defs x = some y → n.hw.defs x = some y ∨ (x = o ∧ y = d)) → SafeB env { n with hw := hw } := by
    intro hw h1 h2
    refine ⟨⟨h.ub, h.own, h.msg, h.reg, h.chg⟩, h1 _ h.u0, fun x hx => h1 _ (h.ur x hx), ?_, ?_, h.fresh⟩
    · intro p hp
      obtain ⟨a, b, c, e, f⟩ := h.slot p hp
      refine ⟨h1 _ a, b, c, e, fun y hy => ?_⟩
      rcases h2 _ _ hy with k | ⟨k1, k2⟩
      · exact f y k
      · rw [k2]; exact hd p hp k1
    · intro tp i hi
      exact ⟨h1 _ (h.msgo tp i hi).1, (h.msgo tp i hi).2⟩
  unfold Node.define
  rw [if_neg (by omega)]
  dsimp only
  split
  · refine key _ hu fun x y hy => ?_
    dsimp only at hy
    by_cases e : x = o
    · right
      simp only [upd, e, if_true, Option.some.injEq] at hy
      exact ⟨e, hy.symm⟩
    · simp only [upd, e, if_false] at hy; exact .inl hy
  · exact key _ hu fun x y hy => .inl hy

/-- templates for the invariant -/
def TplB (r : Row) : Prop := OwnSet r ∧ r.typ ≠ [] ∧ ∀ i, r.rxMsgObj i = 0

theorem define_uses {n : Node} {o : Nat} (d : ObjDef) (ho : o < env.nObj) : (define env n o d).1.hw.used o = true := by
  unfold define
  rw [if_neg (by omega)]
  dsimp only
  split <;> simp [upd]

theorem define_done {n : Node} {o : Nat} (d : ObjDef) (ho : o < env.nObj) (h : (define env n o d).2 = E.ok) :
    (define env n o d).1.hw.defs o = some d := by
  unfold define at h ⊢
  rw [if_neg (by omega)] at h ⊢
  dsimp only at h ⊢
  split
  · simp [upd]
  · next e => rw [if_neg e] at h; simp at h

theorem heldB (he : EnvOk env) : Held env (SafeB env) (fun tp n => (n.rows tp).typ ≠ []) TplB where
  base h := h.toBase
  mild h m := h.mild m
  mildR h m := by rw [m.typ]; exact h
  ren := by
    intro n tp i nr h hi
    have hi4 : i < 4 := Nat.lt_of_lt_of_le hi (h.own tp).rx4
    obtain ⟨e1, e2⟩ := syncRxId_obj nr i hi4
    refine h.define _ (h.msg _ _) ?_
    intro p hp e
    have h0 : (n.rows tp).rxMsgObj i ≠ 0 := by rw [← e]; exact (h.slot p hp).2.1
    have ht := (h.msgo tp i h0).2 p hp e
    refine ⟨rfl, e1, ?_⟩
    rw [ht]
    show RxOk (n.rows tp) (syncRxId nr i % 4)
    rw [e2]; exact (h.own tp).rx i hi
  rx1 := by
    intro n tp i nr h hr hi
    unfold setRx1
    dsimp only
    have m : Mild env n (n.setRow tp fun r => { r with rxDlcSync := upd r.rxDlcSync i (r.rxDlc i) }) :=
      .row rfl rfl rfl rfl rfl rfl rfl rfl rfl rfl (fun _ h => h) (fun _ h => h) fun _ h => .inl h
    replace h := h.mild m
    replace hr : ((n.setRow tp fun r => { r with rxDlcSync := upd r.rxDlcSync i (r.rxDlc i) }).rows tp).typ ≠ [] := by
      rw [m.typ]; exact hr
    replace hi : i < ((n.setRow tp fun r => { r with rxDlcSync := upd r.rxDlcSync i (r.rxDlc i) }).rows tp).rxObj := by
      rw [m.rxObj]; exact hi
    generalize (n.setRow tp fun r => { r with rxDlcSync := upd r.rxDlcSync i (r.rxDlc i) }) = a at h hr hi ⊢
    split
    · exact ⟨h, hr⟩
    · next o ho =>
      obtain ⟨h1, h2⟩ := nextFree_some ho
      have hi4 : i < 4 := Nat.lt_of_lt_of_le hi (h.own tp).rx4
      obtain ⟨e1, e2⟩ := syncRxId_obj nr i hi4
      have o0 : o ≠ 0 := by rintro rfl; rw [h.u0] at h2; cases h2
      have orr : ¬ Reused env o := fun k => by rw [h.ur o k] at h2; cases h2
      have noslot : ∀ p ∈ a.slots, p.1 ≠ o := by
        rintro p hp rfl
        rw [(h.slot p hp).1] at h2; cases h2
      have nomsg : ∀ x j, (a.rows x).rxMsgObj j ≠ o := by
        rintro x j e
        have := (h.msgo x j (by rw [e]; exact o0)).1
        rw [e, h2] at this; cases this
      -- the row with the new object
      have rw1 : ∀ x, (a.setRow tp fun r => { r with rxMsgObj := upd r.rxMsgObj i o }).rows x =
          if x = tp then { a.rows tp with rxMsgObj := upd (a.rows tp).rxMsgObj i o } else a.rows x := by
        intro x; simp [setRow, upd]
      generalize hb : (a.setRow tp fun r => { r with rxMsgObj := upd r.rxMsgObj i o }) = b at rw1 ⊢
      have bs : b.slots = a.slots := by rw [← hb]; rfl
      have bh : b.hw = a.hw := by rw [← hb]; rfl
      have bt : ∀ x, (b.rows x).typ = (a.rows x).typ := by
        intro x; rw [rw1]; split
        · next e => rw [e]
        · rfl
      have bx : ∀ x k, RxOk (b.rows x) k ↔ RxOk (a.rows x) k := by
        intro x k; rw [rw1]; split
        · next e => rw [e]; exact Iff.rfl
        · exact Iff.rfl
      have btx : ∀ x k, TxOk (b.rows x) k ↔ TxOk (a.rows x) k := by
        intro x k; rw [rw1]; split
        · next e => rw [e]; exact Iff.rfl
        · exact Iff.rfl
      have bm : ∀ x j, (b.rows x).rxMsgObj j = if x = tp ∧ j = i then o else (a.rows x).rxMsgObj j := by
        intro x j; rw [rw1]
        by_cases e : x = tp
        · subst e; simp only [if_true, true_and, upd]
        · simp only [e, if_false, false_and]
      have bbase : Base env b := by
        refine ⟨by rw [← hb]; exact h.ub, ?_, ?_, ?_, by rw [← hb]; exact h.chg⟩
        · intro x; rw [rw1]; split
          · next e => exact ⟨(h.own tp).tx4, (h.own tp).rx4, (h.own tp).tx, (h.own tp).rx⟩
          · exact h.own x
        · intro x j; rw [bm]; split
          · exact h1
          · exact h.msg x j
        · intro k hk
          rw [btx]
          exact h.reg k (by rw [← hb] at hk; exact hk)
      -- after programming it
      obtain ⟨hw, ed⟩ := define_in (env := env) (n := b) ⟨syncRxId nr i, 0x7FF#16, (b.rows tp).rxDlc i, .rx true⟩ h1
      have du := define_uses (env := env) (n := b) ⟨syncRxId nr i, 0x7FF#16, (b.rows tp).rxDlc i, .rx true⟩ h1
      have dd := define_done (env := env) (n := b) ⟨syncRxId nr i, 0x7FF#16, (b.rows tp).rxDlc i, .rx true⟩ h1
      have dm := define_mild (env := env) (n := b) ⟨syncRxId nr i, 0x7FF#16, (b.rows tp).rxDlc i, .rx true⟩ h1 (.inr (by rw [bh]; exact h2))
      generalize Node.define env b o ⟨syncRxId nr i, 0x7FF#16, (b.rows tp).rxDlc i, .rx true⟩ = c at ed du dd dm ⊢
      have cr : c.1.rows = b.rows := by rw [ed]
      have cs : c.1.slots = a.slots := by rw [dm.slots, bs]
      have cu : ∀ x, a.hw.used x = true → c.1.hw.used x = true := fun x hx => dm.used x (by rw [bh]; exact hx)
      have cslot : ∀ p ∈ a.slots, c.1.hw.used p.1 = true ∧ p.1 ≠ 0 ∧ ¬ Reused env p.1 ∧ (c.1.rows p.2).typ ≠ [] ∧
          ∀ d, c.1.hw.defs p.1 = some d → d.mask = 0x7FF#16 ∧ d.id < 65536 ∧ RxOk (c.1.rows p.2) (d.id % 4) := by
        intro p hp
        obtain ⟨k1, k2, k3, k4, k5⟩ := h.slot p hp
        refine ⟨cu _ k1, k2, k3, by rw [cr, bt]; exact k4, fun d hd => ?_⟩
        rw [dm.defs _ (by rw [bh]; exact k1) k3, bh] at hd
        obtain ⟨l1, l2, l3⟩ := k5 d hd
        exact ⟨l1, l2, by rw [cr, bx]; exact l3⟩
      have cmsg : ∀ x j, (c.1.rows x).rxMsgObj j ≠ 0 → c.1.hw.used ((c.1.rows x).rxMsgObj j) = true ∧
          ((x = tp ∧ (c.1.rows x).rxMsgObj j = o) ∨ (c.1.rows x).rxMsgObj j ≠ o) ∧
          ∀ p ∈ a.slots, p.1 = (c.1.rows x).rxMsgObj j → p.2 = x := by
        intro x j
        rw [cr, bm]
        split
        · next e => exact fun _ => ⟨du, .inl ⟨e.1, rfl⟩, fun p hp e' => absurd e' (noslot p hp)⟩
        · intro hx
          exact ⟨cu _ (h.msgo x j hx).1, .inr (nomsg x j), (h.msgo x j hx).2⟩
      have cfresh : ∀ x, (c.1.rows x).typ = [] → (∀ j, (c.1.rows x).tx j = 0) ∧ ∀ j, (c.1.rows x).rxMsgObj j = 0 := by
        intro x hx
        rw [cr, bt] at hx
        have ne : x ≠ tp := by rintro rfl; exact hr hx
        rw [cr, rw1, if_neg ne]
        exact h.fresh x hx
      have cT : (c.1.rows tp).typ ≠ [] := by rw [cr, bt]; exact hr
      have csafe : SafeB env c.1 :=
        ⟨bbase.mild dm, cu _ h.u0, fun x hx => cu _ (h.ur x hx), by rw [cs]; exact cslot,
         fun x j hx => ⟨(cmsg x j hx).1, by rw [cs]; exact (cmsg x j hx).2.2⟩, cfresh⟩
      unfold Node.thenOk
      split
      · next eok =>
        dsimp only
        unfold addSlot
        split
        · refine ⟨?_, cT⟩
          refine ⟨⟨csafe.ub, csafe.own, csafe.msg, csafe.reg, csafe.chg⟩, csafe.u0, csafe.ur, ?_, ?_, csafe.fresh⟩
          · intro p hp
            rcases List.mem_append.1 hp with hp | hp
            · exact csafe.slot p hp
            · rw [List.mem_singleton.1 hp]
              refine ⟨du, o0, orr, cT, fun d hd => ?_⟩
              have hd' : c.1.hw.defs o = some d := hd
              rw [dd eok] at hd'
              rw [← Option.some.inj hd']
              refine ⟨rfl, e1, ?_⟩
              show RxOk (c.1.rows tp) (syncRxId nr i % 4)
              rw [e2, cr, bx]
              exact (h.own tp).rx i hi
          · intro x j hx
            refine ⟨(csafe.msgo x j hx).1, ?_⟩
            intro p hp e
            rcases List.mem_append.1 hp with hp | hp
            · exact (csafe.msgo x j hx).2 p hp e
            · rw [List.mem_singleton.1 hp] at e ⊢
              rcases (cmsg x j hx).2.1 with k | k
              · exact k.1.symm
              · exact absurd e.symm k
        · exact ⟨csafe, cT⟩
      · exact ⟨csafe, cT⟩
  fill := by
    intro n tp tpl nr rx tx h hf ht
    have rw1 : ∀ x, (fillRow n tp tpl nr rx tx).rows x =
        if x = tp then { tpl with nr := nr, rx := rx, tx := tx, txObjSync := tpl.txObj } else n.rows x := by
      intro x; simp [fillRow, setRow, upd]
    obtain ⟨t1, t2, t3⟩ := ht
    obtain ⟨f1, f2⟩ := h.fresh tp hf
    refine ⟨⟨⟨h.ub, ?_, ?_, ?_, h.chg⟩, h.u0, h.ur, ?_, ?_, ?_⟩, ?_⟩
    · intro x; rw [rw1]; split
      · exact ⟨t1.tx4, t1.rx4, t1.tx, t1.rx⟩
      · exact h.own x
    · intro x j; rw [rw1]; split
      · show tpl.rxMsgObj j < env.nObj
        rw [t3 j]; have := he.o10; omega
      · exact h.msg x j
    · intro k hk
      rw [rw1]; split
      · next e =>
        have := (h.reg k hk).1
        rw [e] at this
        exact absurd (f1 _) this
      · exact h.reg k hk
    · intro p hp
      obtain ⟨a, b, c, d, e⟩ := h.slot p hp
      have ne : p.2 ≠ tp := by intro e'; rw [e'] at d; exact d hf
      rw [rw1, if_neg ne]
      exact ⟨a, b, c, d, e⟩
    · intro x j; rw [rw1]; split
      · intro hx; exact absurd (t3 j) hx
      · exact h.msgo x j
    · intro x; rw [rw1]; split
      · intro hx; exact absurd hx t2
      · exact h.fresh x
    · rw [rw1, if_pos rfl]; exact t2
  retype := by
    intro n tp c h hc
    obtain ⟨al, ht⟩ := h.chg tp c hc
    have rw1 : ∀ x, upd n.rows tp (retyped (n.rows tp) c.row) x = if x = tp then retyped (n.rows tp) c.row else n.rows x := by
      intro x; simp [upd]
    refine ⟨⟨h.ub, ?_, ?_, ?_, h.chg⟩, h.u0, h.ur, ?_, ?_, ?_⟩ <;> dsimp only
    · intro x; rw [rw1]; split
      · have := al.own; exact ⟨this.tx4, this.rx4, this.tx, this.rx⟩
      · exact h.own x
    · intro x j; rw [rw1]; split
      · exact h.msg tp j
      · exact h.msg x j
    · intro k hk; simp at hk
    · intro p hp
      obtain ⟨a, b, d, e, f⟩ := h.slot p hp
      rw [rw1]
      split
      · exact ⟨a, b, d, ht, fun y hy => ⟨(f y hy).1, (f y hy).2.1, al.rx _ (Nat.mod_lt _ (by decide))⟩⟩
      · exact ⟨a, b, d, e, f⟩
    · intro x j; rw [rw1]; split
      · next e => rw [e]; exact h.msgo tp j
      · exact h.msgo x j
    · intro x; rw [rw1]; split
      · intro hx; exact absurd hx ht
      · exact h.fresh x
  chgAdd := by
    intro n tp c h h1 h2
    refine ⟨⟨h.ub, h.own, h.msg, h.reg, ?_⟩, h.u0, h.ur, h.slot, h.msgo, h.fresh⟩
    intro x c' e
    dsimp only at e
    by_cases hx : x = tp
    · simp only [upd, hx, if_true, Option.some.injEq] at e; subst e; exact ⟨h1, h2⟩
    · simp only [upd, hx, if_false] at e; exact h.chg x c' e

/-! ## After the first initialisation -/

theorem thenOk_both {r : Node × Err} {f : Node → Node × Err} (h : (Node.thenOk r f).2 = E.ok) :
    r.2 = E.ok ∧ (f r.1).2 = E.ok ∧ (Node.thenOk r f).1 = (f r.1).1 := by
  unfold Node.thenOk at h ⊢
  split at h
  · next e => rw [if_pos e]; exact ⟨e, h, rfl⟩
  · next e => exact absurd h e

theorem SafeB.init (he : EnvOk env) {mem : Nat → List Byte} {n : Node} (hp : Plain (boot mem) n) (h : (n.init env).2 = E.ok) :
    SafeB env (n.init env).1 := by
  obtain ⟨l, k, q, rfl⟩ := hp
  have h10 := he.o10
  have key : ∀ (n0 : Node) (o : Nat) (d : ObjDef) (n : Node), o < env.nObj → (∃ hw, n = { n0 with hw := hw }) →
      ∃ hw, (Node.define env n o d).1 = { n0 with hw := hw } := by
    rintro n0 o d n ho ⟨hw, rfl⟩
    obtain ⟨hw', e⟩ := define_in (env := env) (n := { n0 with hw := hw }) d ho
    exact ⟨hw', e⟩
  unfold Node.init at h ⊢
  extract_lets hw0 n0 r1 r2 r3 r4 at h ⊢
  have a0 : ∃ hw, n0 = { n0 with hw := hw } := ⟨n0.hw, rfl⟩
  have e1 : ∃ hw, r1.1 = { n0 with hw := hw } := key n0 _ _ _ (by omega) a0
  obtain ⟨i4, i5, j5⟩ := thenOk_both h
  obtain ⟨i3, -, j4⟩ := thenOk_both i4
  obtain ⟨i2, -, j3⟩ := thenOk_both i3
  obtain ⟨-, -, j2⟩ := thenOk_both i2
  have e2 : ∃ hw, r2.1 = { n0 with hw := hw } := by rw [j2]; exact key n0 _ _ _ (by omega) e1
  have e3 : ∃ hw, r3.1 = { n0 with hw := hw } := by
    rw [j3]
    split
    · exact key n0 _ _ _ (by omega) e2
    · exact e2
  have e4 : ∃ hw, r4.1 = { n0 with hw := hw } := by rw [j4]; exact key n0 _ _ _ (by omega) e3
  have u1 : r1.1.hw.used 0 = true := define_uses _ (by omega)
  have u2 : ∀ x, r1.1.hw.used x = true ∨ x = 2 → r2.1.hw.used x = true := by
    rw [j2]; rintro x (hx | rfl)
    · exact define_used env _ _ _ _ (by omega) hx
    · exact define_uses _ (by omega)
  have u3 : ∀ x, r2.1.hw.used x = true ∨ (x = 3 ∧ env.sysObj2 = true) → r3.1.hw.used x = true := by
    rw [j3]; rintro x (hx | ⟨rfl, hx⟩)
    · split
      · exact define_used env _ _ _ _ (by omega) hx
      · exact hx
    · rw [if_pos hx]; exact define_uses _ (by omega)
  have u4 : ∀ x, r3.1.hw.used x = true ∨ x = 6 → r4.1.hw.used x = true := by
    rw [j4]; rintro x (hx | rfl)
    · exact define_used env _ _ _ _ (by omega) hx
    · exact define_uses _ (by omega)
  have u5 : ∀ x, r4.1.hw.used x = true → (Node.thenOk r4 fun n => Node.define env n 10 ⟨0, 0x7FF#16, 0, .tx⟩).1.hw.used x = true := by
    rw [j5]; intro x hx
    exact define_used env _ _ _ _ (by omega) hx
  have e5 : ∃ hw, (Node.thenOk r4 fun n => Node.define env n 10 ⟨0, 0x7FF#16, 0, .tx⟩).1 = { n0 with hw := hw } := by
    rw [j5]; exact key n0 _ _ _ (by omega) e4
  generalize (Node.thenOk r4 fun n => Node.define env n 10 ⟨0, 0x7FF#16, 0, .tx⟩).1 = n at u5 e5 ⊢
  obtain ⟨hw, rfl⟩ := e5
  have ro : ∀ tp, ∃ t, n0.rows tp = { (boot mem).rows tp with typ := t } := by
    intro tp
    show ∃ t, (if tp < env.maxMod then _ else _) = _
    split
    · exact ⟨_, rfl⟩
    · exact ⟨_, rfl⟩
  refine ⟨⟨rfl, ?_, ?_, ?_, ?_⟩, u5 _ (u4 _ (.inl (u3 _ (.inl (u2 _ (.inl u1)))))), ?_, ?_, ?_, ?_⟩
  · intro tp
    obtain ⟨t, e⟩ := ro tp
    show OwnSet (n0.rows tp)
    rw [e]
    exact ⟨Nat.zero_le _, Nat.zero_le _, fun i hi => absurd hi (Nat.not_lt_zero i), fun i hi => absurd hi (Nat.not_lt_zero i)⟩
  · intro tp i
    obtain ⟨t, e⟩ := ro tp
    show (n0.rows tp).rxMsgObj i < env.nObj
    rw [e]; show 0 < env.nObj; omega
  · intro k hk
    have hk' : (0#32).getLsbD k = true := hk
    simp at hk'
  · intro tp c hc; cases hc
  · rintro o (rfl | rfl | ⟨rfl, ho⟩)
    · exact u5 _ (u4 _ (.inl (u3 _ (.inl (u2 _ (.inr rfl))))))
    · exact u5 _ (u4 _ (.inr rfl))
    · exact u5 _ (u4 _ (.inl (u3 _ (.inr ⟨rfl, ho⟩))))
  · intro p hp; cases hp
  · intro tp i hi
    obtain ⟨t, e⟩ := ro tp
    have hi' : (n0.rows tp).rxMsgObj i ≠ 0 := hi
    rw [e] at hi'
    exact absurd rfl hi'
  · intro tp _
    obtain ⟨t, e⟩ := ro tp
    show (∀ i, (n0.rows tp).tx i = 0) ∧ ∀ i, (n0.rows tp).rxMsgObj i = 0
    rw [e]; exact ⟨fun _ => rfl, fun _ => rfl⟩

end Node
end LiCan
