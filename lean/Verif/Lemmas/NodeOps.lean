import Verif.Model.Node
/-! # What the operations on the module table change (explicit forms) -/
namespace LiCan.Node

theorem upd_upd {α : Type _} (f : Nat → α) (k : Nat) (v w : α) : upd (upd f k v) k w = upd f k w := by
  funext i; simp only [upd]; split <;> rfl

theorem upd_self {α : Type _} (f : Nat → α) (k : Nat) : upd f k (f k) = f := by
  funext i; simp only [upd]; split
  · next h => rw [h]
  · rfl

theorem thenOk_ok {n : Node} {f : Node → Node × Err} : thenOk (n, E.ok) f = f n := by
  simp [thenOk]

theorem forDo_append (f : Nat → Node → Node) (a b : List Nat) (n : Node) :
    forDo f (a ++ b) n = forDo f b (forDo f a n) := by
  induction a generalizing n with
  | nil => rfl
  | cons x a ih => simp only [List.cons_append, forDo, ih]

theorem forDo_range_succ (f : Nat → Node → Node) (k : Nat) (n : Node) :
    forDo f (List.range (k + 1)) n = f k (forDo f (List.range k) n) := by
  rw [List.range_succ, forDo_append]; rfl

/-- the send register after clearing the bits of objects `0..k-1` of row `tp` -/
def clearBits (reg : BitVec 32) (tp : Nat) : Nat → BitVec 32
  | 0 => reg
  | k + 1 => clearBits reg tp k &&& ~~~ ((1#32 <<< k) <<< (4 * tp))

/-- the send register after setting the bits of objects `0..k-1` of row `tp` -/
def setBits (reg : BitVec 32) (tp : Nat) : Nat → BitVec 32
  | 0 => reg
  | k + 1 => setBits reg tp k ||| ((1#32 <<< k) <<< (4 * tp))

theorem one_shift_bit (k tp p : Nat) (h : 4 * tp + k < 32) :
    ((1#32 <<< k) <<< (4 * tp)).getLsbD p = decide (p = 4 * tp + k) := by
  rw [← BitVec.shiftLeft_add]
  simp only [BitVec.getLsbD_shiftLeft, BitVec.getLsbD_one]
  by_cases hp : p = 4 * tp + k
  · subst hp
    simp; omega
  · simp only [hp, decide_false]
    by_cases h1 : p < k + 4 * tp
    · simp [h1]
    · have : ¬ (p - (k + 4 * tp) = 0) := by omega
      simp [this]

theorem clearBits_bit (reg : BitVec 32) (tp k p : Nat) (hk : k ≤ 4) (htp : tp < 8) :
    (clearBits reg tp k).getLsbD p = (reg.getLsbD p && !decide (4 * tp ≤ p ∧ p < 4 * tp + k)) := by
  induction k with
  | zero => simp [clearBits]; omega
  | succ k ih =>
    simp only [clearBits, BitVec.getLsbD_and, ih (by omega), BitVec.getLsbD_not,
      one_shift_bit k tp p (by omega)]
    by_cases h32 : p < 32
    · simp only [h32, decide_true, Bool.true_and]
      by_cases h1 : p = 4 * tp + k
      · have : (4 * tp ≤ p ∧ p < 4 * tp + (k + 1)) := by omega
        simp [h1]
      · by_cases h2 : 4 * tp ≤ p ∧ p < 4 * tp + k
        · have : (4 * tp ≤ p ∧ p < 4 * tp + (k + 1)) := by omega
          simp [h2, this]
        · have : ¬ (4 * tp ≤ p ∧ p < 4 * tp + (k + 1)) := by omega
          simp [h1, h2, this]
    · rw [BitVec.getLsbD_of_ge _ _ (by omega)]; simp

theorem setBits_bit (reg : BitVec 32) (tp k p : Nat) (hk : k ≤ 4) (htp : tp < 8) :
    (setBits reg tp k).getLsbD p = (reg.getLsbD p || decide (4 * tp ≤ p ∧ p < 4 * tp + k)) := by
  induction k with
  | zero => simp [setBits]; omega
  | succ k ih =>
    simp only [setBits, BitVec.getLsbD_or, ih (by omega), one_shift_bit k tp p (by omega)]
    by_cases h1 : p = 4 * tp + k
    · have : (4 * tp ≤ p ∧ p < 4 * tp + (k + 1)) := by omega
      simp [h1]
    · by_cases h2 : 4 * tp ≤ p ∧ p < 4 * tp + k
      · have : (4 * tp ≤ p ∧ p < 4 * tp + (k + 1)) := by omega
        simp [h2, this]
      · have : ¬ (4 * tp ≤ p ∧ p < 4 * tp + (k + 1)) := by omega
        simp [h1, h2, this]

/-- array whose first `k` entries are replaced -/
def first {α : Type _} (k : Nat) (new old : Nat → α) : Nat → α := fun i => if i < k then new i else old i

theorem first_zero {α : Type _} (new old : Nat → α) : first 0 new old = old := by
  funext i; simp [first]

theorem first_succ {α : Type _} (k : Nat) (new old : Nat → α) :
    upd (first k new old) k (new k) = first (k + 1) new old := by
  funext i; simp only [upd, first]
  by_cases h : i = k
  · subst h; simp
  · by_cases h2 : i < k
    · have : i < k + 1 := by omega
      simp [h, h2, this]
    · have : ¬ i < k + 1 := by omega
      simp [h, h2, this]

/-- the row after `can_config_sync_off` -/
def offRow (r : Row) : Row :=
  { r with txObjSync := 0, rxObjSync := 0
           txDlcSync := first r.txObj (fun _ => 0) r.txDlcSync
           txMainSync := first r.txObj (fun _ => .dummy) r.txMainSync
           rxDlcSync := first r.rxObj (fun _ => 0) r.rxDlcSync
           rxMainSync := first r.rxObj (fun _ => .dummy) r.rxMainSync }

/-- the row after `can_config_sync_on` -/
def onRow (r : Row) : Row :=
  { r with txObjSync := r.txObj, rxObjSync := r.rxObj
           txDlcSync := first r.txObj r.txDlc r.txDlcSync
           txMainSync := first r.txObj r.txMain r.txMainSync
           rxDlcSync := first r.rxObj r.rxDlc r.rxDlcSync
           rxMainSync := first r.rxObj r.rxMain r.rxMainSync }

theorem syncOn_eq (n : Node) (tp : Nat) :
    syncOn n tp =
      { n with rows := upd n.rows tp (onRow (n.rows tp))
               tx := { n.tx with reg := setBits n.tx.reg tp (n.rows tp).txObj } } := by
  have h1 : ∀ (n : Node) k, forDo (fun i n => (n.txOn tp i).setRow tp fun r =>
      { r with txDlcSync := upd r.txDlcSync i (r.txDlc i)
               txMainSync := upd r.txMainSync i (r.txMain i) }) (List.range k) n =
      { n with rows := upd n.rows tp
                { n.rows tp with txDlcSync := first k (n.rows tp).txDlc (n.rows tp).txDlcSync
                                 txMainSync := first k (n.rows tp).txMain (n.rows tp).txMainSync }
               tx := { n.tx with reg := setBits n.tx.reg tp k } } := by
    intro n k
    induction k with
    | zero => simp only [List.range_zero, forDo, first_zero, setBits, upd_self]
    | succ k ih =>
      rw [forDo_range_succ, ih]
      simp only [txOn, setRow, upd_same, upd_upd, first_succ, setBits]
  have h2 : ∀ (n : Node) k, forDo (fun i n => n.setRow tp fun r =>
      { r with rxDlcSync := upd r.rxDlcSync i (r.rxDlc i)
               rxMainSync := upd r.rxMainSync i (r.rxMain i) }) (List.range k) n =
      { n with rows := upd n.rows tp
                { n.rows tp with rxDlcSync := first k (n.rows tp).rxDlc (n.rows tp).rxDlcSync
                                 rxMainSync := first k (n.rows tp).rxMain (n.rows tp).rxMainSync } } := by
    intro n k
    induction k with
    | zero => simp only [List.range_zero, forDo, first_zero, upd_self]
    | succ k ih =>
      rw [forDo_range_succ, ih]
      simp only [setRow, upd_same, upd_upd, first_succ]
  simp only [syncOn, h1, h2]
  simp only [setRow, upd_same, upd_upd, onRow]

theorem forDo_callRx (env : Env) (tp : Nat) (l : List Nat) (n : Node) :
    ∃ m u, forDo (fun i n =>
      (n.callRx env ((n.rows tp).rxMain i) zeros8 ((n.rows tp).rx i) ((n.rows tp).rxDlc i)).1) l n =
      { n with mem := m, ub := u } := by
  induction l generalizing n with
  | nil => exact ⟨n.mem, n.ub, rfl⟩
  | cons i l ih =>
    simp only [forDo, callRx]
    split
    · obtain ⟨m, u, h⟩ := ih { n with ub := true }
      exact ⟨m, u, h⟩
    · exact ih n
    · next k _ =>
      obtain ⟨m, u, h⟩ := ih { n with mem := upd n.mem ((n.rows tp).rx i) (env.rxConv k zeros8 ((n.rows tp).rxDlc i) (n.mem ((n.rows tp).rx i))).1 }
      exact ⟨m, u, h⟩

theorem syncOff_eq (env : Env) (n : Node) (tp : Nat) :
    ∃ m u, syncOff env n tp =
      { n with rows := upd n.rows tp (offRow (n.rows tp))
               tx := { n.tx with reg := clearBits n.tx.reg tp (n.rows tp).txObj }
               mem := m, ub := u } := by
  have h1 : ∀ (n : Node) k, forDo (fun i n => (n.txOff tp i).setRow tp fun r =>
      { r with txDlcSync := upd r.txDlcSync i 0
               txMainSync := upd r.txMainSync i .dummy }) (List.range k) n =
      { n with rows := upd n.rows tp
                { n.rows tp with txDlcSync := first k (fun _ => 0) (n.rows tp).txDlcSync
                                 txMainSync := first k (fun _ => .dummy) (n.rows tp).txMainSync }
               tx := { n.tx with reg := clearBits n.tx.reg tp k } } := by
    intro n k
    induction k with
    | zero => simp only [List.range_zero, forDo, first_zero, clearBits, upd_self]
    | succ k ih =>
      rw [forDo_range_succ, ih]
      simp only [txOff, setRow, upd_same, upd_upd, clearBits, ← first_succ]
  have h2 : ∀ (n : Node) k, forDo (fun i n => n.setRow tp fun r =>
      { r with rxDlcSync := upd r.rxDlcSync i 0
               rxMainSync := upd r.rxMainSync i .dummy }) (List.range k) n =
      { n with rows := upd n.rows tp
                { n.rows tp with rxDlcSync := first k (fun _ => 0) (n.rows tp).rxDlcSync
                                 rxMainSync := first k (fun _ => .dummy) (n.rows tp).rxMainSync } } := by
    intro n k
    induction k with
    | zero => simp only [List.range_zero, forDo, first_zero, upd_self]
    | succ k ih =>
      rw [forDo_range_succ, ih]
      simp only [setRow, upd_same, upd_upd, ← first_succ]
  simp only [syncOff, h1, h2]
  obtain ⟨m, u, h⟩ := forDo_callRx env tp (List.range (n.rows tp).rxObj)
    { n with rows := upd n.rows tp (offRow (n.rows tp))
             tx := { n.tx with reg := clearBits n.tx.reg tp (n.rows tp).txObj } }
  refine ⟨m, u, ?_⟩
  simp only [offRow, upd_same] at h
  simp only [setRow, upd_same, upd_upd, offRow]
  exact h

theorem define_eq (env : Env) (n : Node) (o : Nat) (d : ObjDef) :
    ∃ hw u, (define env n o d).1 = { n with hw := hw, ub := u } := by
  simp only [define]
  split
  · exact ⟨n.hw, true, rfl⟩
  · split
    · exact ⟨_, n.ub, rfl⟩
    · exact ⟨_, n.ub, rfl⟩

theorem defineCtrl_eq (env : Env) (n : Node) (i nr : Nat) :
    ∃ hw u c, (defineCtrl env n i nr).1 = { n with hw := hw, ub := u, ctrlObj := c } := by
  simp only [defineCtrl]
  split
  · exact ⟨n.hw, n.ub, n.ctrlObj, rfl⟩
  · split
    · exact ⟨n.hw, n.ub, n.ctrlObj, rfl⟩
    · next o _ =>
      obtain ⟨hw, u, h⟩ := define_eq env { n with ctrlObj := upd n.ctrlObj i o } o
        ⟨asyncCtrlRxId nr, 0x7FF#16, 8, .asyncCtrlRx⟩
      exact ⟨hw, u, upd n.ctrlObj i o, h⟩

/-- the part of `finish` before the silent/awake state is set -/
def finishHw (env : Env) (n : Node) (idx nr : Nat) (nrs : List Nat) : Node × Err :=
  let r := defineCtrl env n idx nr
  let r := thenOk r fun n => define env n 6 ⟨0x602, acceptMask nrs, 8, .asyncRx⟩
  let r := thenOk r fun n => define env n 2 ⟨0x002, acceptMask nrs, 8, .rx false⟩
  thenOk r fun n =>
    if env.sysObj2 then define env n 3 ⟨0x002, acceptMask nrs, 8, .rx false⟩ else (n, E.ok)

theorem finish_eq (env : Env) (n : Node) (tp idx nr : Nat) (nrs : List Nat) :
    finish env n tp idx nr nrs =
      thenOk (finishHw env n idx nr nrs) fun n => setSilentAwake env n tp (n.silent tp) := rfl

/-- `HwOnly n n'`: `n'` differs from `n` only in the message objects. -/
def HwOnly (n n' : Node) : Prop :=
  ∃ hw u c s, n' = { n with hw := hw, ub := u, ctrlObj := c, slots := s }

theorem HwOnly.refl (n : Node) : HwOnly n n := ⟨n.hw, n.ub, n.ctrlObj, n.slots, rfl⟩
theorem HwOnly.trans {a b c : Node} (h : HwOnly a b) (h' : HwOnly b c) : HwOnly a c := by
  obtain ⟨hw, u, c', s, rfl⟩ := h
  obtain ⟨hw2, u2, c2, s2, rfl⟩ := h'
  exact ⟨hw2, u2, c2, s2, rfl⟩

theorem HwOnly.thenOk {n : Node} {r : Node × Err} {f : Node → Node × Err} (h : HwOnly n r.1)
    (hf : ∀ n', HwOnly n' (f n').1) : HwOnly n (Node.thenOk r f).1 := by
  unfold Node.thenOk; split
  · exact h.trans (hf _)
  · exact h

theorem define_hwOnly (env : Env) (n : Node) (o : Nat) (d : ObjDef) :
    HwOnly n (define env n o d).1 := by
  obtain ⟨hw, u, h⟩ := define_eq env n o d
  exact ⟨hw, u, n.ctrlObj, n.slots, h⟩

theorem defineCtrl_hwOnly (env : Env) (n : Node) (i nr : Nat) :
    HwOnly n (defineCtrl env n i nr).1 := by
  obtain ⟨hw, u, c, h⟩ := defineCtrl_eq env n i nr
  exact ⟨hw, u, c, n.slots, h⟩

theorem addSlot_hwOnly (env : Env) (n : Node) (o tp : Nat) : HwOnly n (addSlot env n o tp).1 := by
  simp only [addSlot]; split
  · exact ⟨n.hw, n.ub, n.ctrlObj, _, rfl⟩
  · exact .refl n

theorem finishHw_hwOnly (env : Env) (n : Node) (idx nr : Nat) (nrs : List Nat) :
    HwOnly n (finishHw env n idx nr nrs).1 := by
  unfold finishHw
  refine ((defineCtrl_hwOnly env n idx nr).thenOk fun n => define_hwOnly ..).thenOk
    (fun n => define_hwOnly ..) |>.thenOk fun n => ?_
  split
  · exact define_hwOnly ..
  · exact .refl n

/-- the transmit control after configuring objects `0..k-1` -/
def cnfgTx (t : TxCtl) (dlc : Nat → Nat) (tp nr : Nat) : Nat → TxCtl
  | 0 => t
  | k + 1 =>
    let t := cnfgTx t dlc tp nr k
    { id := upd t.id tp (upd (t.id tp) k (syncTxId nr k))
      dlc := upd t.dlc tp (upd (t.dlc tp) k (dlc k))
      reg := t.reg ||| ((1#32 <<< k) <<< (4 * tp))
      last := pos tp k }

theorem cnfgTx_reg (t : TxCtl) (dlc : Nat → Nat) (tp nr k : Nat) :
    (cnfgTx t dlc tp nr k).reg = setBits t.reg tp k := by
  induction k with
  | zero => rfl
  | succ k ih => simp only [cnfgTx, setBits, ih]

theorem cnfgTx_last (t : TxCtl) (dlc : Nat → Nat) (tp nr k : Nat) :
    (cnfgTx t dlc tp nr k).last = if k = 0 then t.last else 4 * tp + (k - 1) := by
  cases k <;> simp [cnfgTx, pos]

theorem cnfgTx_id (t : TxCtl) (dlc : Nat → Nat) (tp nr k i o : Nat) :
    (cnfgTx t dlc tp nr k).id i o = if i = tp ∧ o < k then syncTxId nr o else t.id i o := by
  induction k with
  | zero => simp [cnfgTx]
  | succ k ih =>
    simp only [cnfgTx, upd]
    by_cases hi : i = tp
    · subst hi
      by_cases ho : o = k
      · subst ho; simp
      · have : (o < k + 1) ↔ (o < k) := by omega
        simp only [↓reduceIte, upd, ho, ih, true_and, this]
    · simp [hi, ih]

theorem cnfgTx_dlc (t : TxCtl) (dlc : Nat → Nat) (tp nr k i o : Nat) :
    (cnfgTx t dlc tp nr k).dlc i o = if i = tp ∧ o < k then dlc o else t.dlc i o := by
  induction k with
  | zero => simp [cnfgTx]
  | succ k ih =>
    simp only [cnfgTx, upd]
    by_cases hi : i = tp
    · subst hi
      by_cases ho : o = k
      · subst ho; simp
      · have : (o < k + 1) ↔ (o < k) := by omega
        simp only [↓reduceIte, upd, ho, ih, true_and, this]
    · simp [hi, ih]

theorem forErr_append (f : Nat → Node → Node × Err) (a b : List Nat) (n : Node) :
    forErr f (a ++ b) n = thenOk (forErr f a n) (forErr f b) := by
  induction a generalizing n with
  | nil => simp [forErr, thenOk]
  | cons x a ih =>
    simp only [List.cons_append, forErr, thenOk, ih]
    split
    · rfl
    · next h => simp [h]

theorem forErr_range_succ (f : Nat → Node → Node × Err) (k : Nat) (n : Node) :
    forErr f (List.range (k + 1)) n = thenOk (forErr f (List.range k) n) (f k) := by
  rw [List.range_succ, forErr_append]
  congr 1
  funext m
  simp only [forErr, thenOk]
  split
  · next h => exact Prod.ext rfl h.symm
  · rfl

/-- transmit objects of a new module: never fails for a row of the table -/
theorem setTx_eq (env : Env) (n : Node) (tp nr : Nat) (htp : tp < env.maxMod)
    (ho : (n.rows tp).txObj ≤ 4) :
    setTx env n tp nr =
      ({ n with rows := upd n.rows tp
                  { n.rows tp with
                    txDlcSync := first (n.rows tp).txObj (n.rows tp).txDlc (n.rows tp).txDlcSync }
                tx := cnfgTx n.tx (n.rows tp).txDlc tp nr (n.rows tp).txObj }, E.ok) := by
  have h : ∀ k ≤ 4, forErr (fun i n =>
      txCnfg env (n.setRow tp fun r => { r with txDlcSync := upd r.txDlcSync i (r.txDlc i) }) tp i nr)
      (List.range k) n =
      ({ n with rows := upd n.rows tp
                  { n.rows tp with
                    txDlcSync := first k (n.rows tp).txDlc (n.rows tp).txDlcSync }
                tx := cnfgTx n.tx (n.rows tp).txDlc tp nr k }, E.ok) := by
    intro k hk
    induction k with
    | zero => simp only [List.range_zero, forErr, first_zero, upd_self, cnfgTx]
    | succ k ih =>
      rw [forErr_range_succ, ih (by omega), thenOk_ok]
      simp only [txCnfg, setRow, upd_same, upd_upd, first_succ, cnfgTx]
      rw [if_neg (by omega), if_neg (by omega)]
  exact h _ ho

/-- new identifiers of the transmit objects: never fails for a row of the table -/
theorem renumTx_eq (env : Env) (n : Node) (tp nr : Nat) (htp : tp < env.maxMod)
    (ho : (n.rows tp).txObj ≤ 4) :
    renumTx env n tp nr =
      ({ n with tx := cnfgTx n.tx (n.rows tp).txDlc tp nr (n.rows tp).txObj }, E.ok) := by
  have h : ∀ k ≤ 4, forErr (fun i n => txCnfg env n tp i nr) (List.range k) n =
      ({ n with tx := cnfgTx n.tx (n.rows tp).txDlc tp nr k }, E.ok) := by
    intro k hk
    induction k with
    | zero => simp only [List.range_zero, forErr, cnfgTx]
    | succ k ih =>
      rw [forErr_range_succ, ih (by omega), thenOk_ok]
      simp only [txCnfg, cnfgTx]
      rw [if_neg (by omega), if_neg (by omega)]
  exact h _ ho

/-- `RxOnly tp n n'`: `n'` differs from `n` only in the message objects and in the receive
bookkeeping of row `tp`. -/
def RxOnly (tp : Nat) (n n' : Node) : Prop :=
  ∃ hw u c s d m, n' = { n with hw := hw, ub := u, ctrlObj := c, slots := s
                                rows := upd n.rows tp
                                  { n.rows tp with rxDlcSync := d, rxMsgObj := m } }

theorem RxOnly.refl (tp : Nat) (n : Node) : RxOnly tp n n :=
  ⟨n.hw, n.ub, n.ctrlObj, n.slots, (n.rows tp).rxDlcSync, (n.rows tp).rxMsgObj, by
    simp only [upd_self]⟩

theorem RxOnly.trans {tp : Nat} {a b c : Node} (h : RxOnly tp a b) (h' : RxOnly tp b c) :
    RxOnly tp a c := by
  obtain ⟨hw, u, c', s, d, m, rfl⟩ := h
  obtain ⟨hw2, u2, c2, s2, d2, m2, rfl⟩ := h'
  exact ⟨hw2, u2, c2, s2, d2, m2, by simp only [upd_same, upd_upd]⟩

theorem HwOnly.rxOnly {n n' : Node} (tp : Nat) (h : HwOnly n n') : RxOnly tp n n' := by
  obtain ⟨hw, u, c, s, rfl⟩ := h
  exact ⟨hw, u, c, s, (n.rows tp).rxDlcSync, (n.rows tp).rxMsgObj, by simp only [upd_self]⟩

theorem RxOnly.thenOk {tp : Nat} {n : Node} {r : Node × Err} {f : Node → Node × Err}
    (h : RxOnly tp n r.1) (hf : ∀ n', RxOnly tp n' (f n').1) :
    RxOnly tp n (Node.thenOk r f).1 := by
  unfold Node.thenOk; split
  · exact h.trans (hf _)
  · exact h

theorem RxOnly.forErr {tp : Nat} {f : Nat → Node → Node × Err} (hf : ∀ i n, RxOnly tp n (f i n).1)
    (l : List Nat) (n : Node) : RxOnly tp n (Node.forErr f l n).1 := by
  induction l generalizing n with
  | nil => exact .refl tp n
  | cons i l ih => exact (hf i n).thenOk ih

theorem setRx1_rxOnly (env : Env) (tp nr i : Nat) (n : Node) :
    RxOnly tp n (setRx1 env tp nr i n).1 := by
  have h0 : ∀ (n : Node) (d : Row → Nat → Nat) (m : Row → Nat → Nat), RxOnly tp n
      (n.setRow tp fun r => { r with rxDlcSync := d r, rxMsgObj := m r }) := by
    intro n d m
    exact ⟨n.hw, n.ub, n.ctrlObj, n.slots, d (n.rows tp), m (n.rows tp), rfl⟩
  unfold setRx1
  refine (h0 n (fun r => upd r.rxDlcSync i (r.rxDlc i)) (fun r => r.rxMsgObj)).trans ?_
  simp only
  split
  · exact .refl _ _
  · next o _ =>
    refine RxOnly.thenOk ?_ (fun n => (addSlot_hwOnly ..).rxOnly tp)
    exact (h0 _ (fun r => r.rxDlcSync) (fun r => upd r.rxMsgObj i o)).trans
      ((define_hwOnly ..).rxOnly tp)

theorem setRx_rxOnly (env : Env) (n : Node) (tp nr : Nat) :
    RxOnly tp (n.setRow tp fun r => { r with rxObjSync := r.rxObj }) (setRx env n tp nr).1 :=
  RxOnly.forErr (fun i n => setRx1_rxOnly env tp nr i n) _ _

end LiCan.Node
