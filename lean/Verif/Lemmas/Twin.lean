import Verif.Lemmas.Cpu2Run
import Verif.Lemmas.SlaveGood
/-!
# The module tables of both CPUs of a device

What registration, number change, type change and silent/awake write into the fixed part of a row does not depend on
the driver, on the message objects or on the received data, so both CPUs get the same table from the same calls.
-/
namespace LiCan

/-- the part of a row that says which module it is and what its data are: without the message objects and without
the copies switched on and off with the module -/
def Spec.fixedPart (r : Row) : Row :=
  { r with rxMsgObj := fun _ => 0, rxObjSync := 0, txObjSync := 0, rxDlcSync := fun _ => 0, txDlcSync := fun _ => 0,
           rxMainSync := fun _ => .null, txMainSync := fun _ => .null }

namespace Twin
open Node Slave Spec

/-- same fixed part of all rows, same registered type changes, same silent states -/
structure Same (n n' : Node) : Prop where
  rows : ∀ t, fixedPart (n'.rows t) = fixedPart (n.rows t)
  chg : n'.chg = n.chg
  silent : n'.silent = n.silent

theorem Same.refl (n : Node) : Same n n := ⟨fun _ => rfl, rfl, rfl⟩
theorem Same.trans {a b c : Node} (h : Same a b) (g : Same b c) : Same a c :=
  ⟨fun t => (g.rows t).trans (h.rows t), g.chg.trans h.chg, g.silent.trans h.silent⟩
theorem Same.light {n n' : Node} (l : Light n n') : Same n n' := ⟨fun t => by rw [l.rows], l.chg, l.silent⟩

theorem Same.setRow (n : Node) (tp : Nat) (f : Row → Row) (hf : ∀ r, fixedPart (f r) = fixedPart r) : Same n (n.setRow tp f) := by
  refine ⟨fun t => ?_, rfl, rfl⟩
  show fixedPart (upd n.rows tp (f (n.rows tp)) t) = _
  by_cases e : t = tp
  · subst e; rw [upd_same]; exact hf _
  · rw [upd_other _ _ e]

theorem Same.thenOk {n : Node} {r : Node × Err} {f : Node → Node × Err} (h : Same n r.1) (hf : ∀ m, Same m (f m).1) :
    Same n (Node.thenOk r f).1 := by
  unfold Node.thenOk
  split
  · exact h.trans (hf _)
  · exact h

theorem Same.forErr {f : Nat → Node → Node × Err} (hf : ∀ i m, Same m (f i m).1) : ∀ (is : List Nat) (n : Node), Same n (Node.forErr f is n).1
  | [], n => .refl n
  | i :: is, n => Same.thenOk (hf i n) fun m => Same.forErr hf is m

theorem Same.forDo {f : Nat → Node → Node} (hf : ∀ i m, Same m (f i m)) : ∀ (is : List Nat) (n : Node), Same n (Node.forDo f is n)
  | [], n => .refl n
  | i :: is, n => (hf i n).trans (Same.forDo hf is _)

theorem Same.define (env : Env) (n : Node) (o : Nat) (d : ObjDef) : Same n (n.define env o d).1 := by
  unfold Node.define
  split
  · exact ⟨fun _ => rfl, rfl, rfl⟩
  · dsimp only; split <;> exact ⟨fun _ => rfl, rfl, rfl⟩

theorem Same.addSlot (env : Env) (n : Node) (o tp : Nat) : Same n (n.addSlot env o tp).1 := by
  unfold Node.addSlot; split <;> exact ⟨fun _ => rfl, rfl, rfl⟩

theorem Same.txCnfg (env : Env) (n : Node) (tp o nr : Nat) : Same n (n.txCnfg env tp o nr).1 := by
  unfold Node.txCnfg
  split
  · exact .refl _
  · split <;> exact ⟨fun _ => rfl, rfl, rfl⟩

theorem Same.syncOff (env : Env) (n : Node) (tp : Nat) : Same n (n.syncOff env tp) := by
  unfold Node.syncOff
  extract_lets n1 n2 n3 n4
  have h1 : Same n n1 := .setRow _ _ _ fun _ => by rfl
  have h2 : Same n1 n2 := .forDo (fun i m => Same.trans (b := m.txOff tp i) ⟨fun _ => rfl, rfl, rfl⟩ (.setRow _ _ _ fun _ => by rfl)) _ _
  have h3 : Same n2 n3 := .setRow _ _ _ fun _ => by rfl
  have h4 : Same n3 n4 := .forDo (fun i m => .setRow _ _ _ fun _ => by rfl) _ _
  exact (((h1.trans h2).trans h3).trans h4).trans (.forDo (fun i m => .light (.callRx ..)) _ _)

theorem Same.syncOn (n : Node) (tp : Nat) : Same n (n.syncOn tp) := by
  unfold Node.syncOn
  extract_lets n1 n2 n3
  have h1 : Same n n1 := .setRow _ _ _ fun _ => by rfl
  have h2 : Same n1 n2 := .forDo (fun i m => Same.trans (b := m.txOn tp i) ⟨fun _ => rfl, rfl, rfl⟩ (.setRow _ _ _ fun _ => by rfl)) _ _
  have h3 : Same n2 n3 := .setRow _ _ _ fun _ => by rfl
  exact ((h1.trans h2).trans h3).trans (.forDo (fun i m => .setRow _ _ _ fun _ => by rfl) _ _)

/-- the silent state of a row written -/
def silenced (env : Env) (n : Node) (tp st : Nat) : Node := if tp < env.maxMod then { n with silent := upd n.silent tp st } else n

theorem Same.setSilentAwake (env : Env) (n : Node) (tp st : Nat) : Same (silenced env n tp st) (n.setSilentAwake env tp st).1 := by
  unfold Node.setSilentAwake silenced
  split
  · dsimp only
    split
    · exact Same.trans (b := { n with silent := upd n.silent tp st, log := .silentCb tp (n.rows tp).nr st :: n.log })
        ⟨fun _ => rfl, rfl, rfl⟩ (.syncOff ..)
    · split
      · exact Same.trans (b := { n with silent := upd n.silent tp st, log := .silentCb tp (n.rows tp).nr st :: n.log })
          ⟨fun _ => rfl, rfl, rfl⟩ (.syncOn ..)
      · exact ⟨fun _ => rfl, rfl, rfl⟩
  · exact .refl _

theorem upd_self {α : Type} (f : Nat → α) (k : Nat) : upd f k (f k) = f := by
  funext j; by_cases e : j = k
  · subst e; exact upd_same ..
  · exact upd_other _ _ e

theorem Same.again (env : Env) (n : Node) (tp : Nat) : Same n (n.setSilentAwake env tp (n.silent tp)).1 := by
  refine Same.trans ?_ (.setSilentAwake ..)
  unfold silenced
  split
  · exact ⟨fun _ => rfl, rfl, upd_self ..⟩
  · exact .refl _

theorem Same.defineCtrl (env : Env) (n : Node) (idx nr : Nat) : Same n (n.defineCtrl env idx nr).1 := by
  unfold Node.defineCtrl
  split
  · exact .refl _
  · split
    · exact .refl _
    · exact Same.trans (b := { n with ctrlObj := upd n.ctrlObj idx _ }) ⟨fun _ => rfl, rfl, rfl⟩ (.define ..)

theorem Same.finish (env : Env) (n : Node) (tp idx nr : Nat) (nrs : List Nat) : Same n (n.finish env tp idx nr nrs).1 := by
  unfold Node.finish
  dsimp only
  refine .thenOk (.thenOk (.thenOk (.thenOk (.defineCtrl ..) ?_) ?_) ?_) ?_
  · exact fun m => .define ..
  · exact fun m => .define ..
  · intro m; split
    · exact .define ..
    · exact .refl _
  · exact fun m => .again ..

theorem Same.setTx (env : Env) (n : Node) (tp nr : Nat) : Same n (n.setTx env tp nr).1 := by
  unfold Node.setTx
  exact .forErr (fun i m => Same.trans (.setRow m tp _ fun _ => by rfl) (.txCnfg ..)) _ _

theorem Same.setRx1 (env : Env) (tp nr i : Nat) (n : Node) : Same n (n.setRx1 env tp nr i).1 := by
  unfold Node.setRx1
  extract_lets n1
  have h1 : Same n n1 := .setRow _ _ _ fun _ => by rfl
  split
  · exact h1
  · dsimp only
    exact .thenOk ((h1.trans (.setRow _ _ _ fun _ => by rfl)).trans (.define ..)) fun m => .addSlot ..

theorem Same.setRx (env : Env) (n : Node) (tp nr : Nat) : Same n (n.setRx env tp nr).1 := by
  unfold Node.setRx
  exact Same.trans (.setRow n tp _ fun _ => by rfl) (.forErr (fun i m => .setRx1 ..) _ _)

theorem Same.setModule (env : Env) (n : Node) (tp : Nat) (tpl : Row) (nr : Nat) (rx tx : Nat → Nat) :
    Same (n.fillRow tp tpl (effNr tp nr) rx tx) (n.setModule env tp tpl nr rx tx).1 := by
  unfold Node.setModule
  dsimp only
  generalize n.fillRow tp tpl (effNr tp nr) rx tx = n1
  refine .thenOk (.setTx ..) fun m => .thenOk (.setRx ..) fun m => ?_
  refine Same.trans (.finish env m tp m.nrMod (effNr tp nr) ((List.range (tp + 1)).map fun i => (m.rows i).nr)) ?_
  generalize m.finish env tp m.nrMod (effNr tp nr) ((List.range (tp + 1)).map fun i => (m.rows i).nr) = r
  exact ⟨fun _ => rfl, rfl, rfl⟩

theorem Same.renumRx (env : Env) (n : Node) (tp nr : Nat) : Same n (n.renumRx env tp nr).1 := .forErr (fun i m => .define ..) _ _
theorem Same.renumTx (env : Env) (n : Node) (tp nr : Nat) : Same n (n.renumTx env tp nr).1 := .forErr (fun i m => .txCnfg ..) _ _

theorem Same.retx (env : Env) : ∀ (js : List Nat) (r : Node × Err), Same r.1 (Node.retx env js r).1
  | [], r => .refl _
  | j :: js, r => by
    have fold : ∀ (is : List Nat) (r : Node × Err), Same r.1 (is.foldl (fun r i => Node.txCnfg env r.1 j i (r.1.rows j).nr) r).1 := by
      intro is
      induction is with
      | nil => exact fun r => .refl _
      | cons i is ih => exact fun r => Same.trans (.txCnfg ..) (ih _)
    unfold Node.retx
    split
    · exact (fold _ _).trans (Same.retx env js _)
    · exact Same.retx env js _

/-! ## The monitor CPU -/

theorem Same.andThen {n : Node} {r : Cpu2 × Err} {f : Cpu2 → Cpu2 × Err} (h : Same n r.1.s.node)
    (hf : ∀ c, Same c.s.node (f c).1.s.node) : Same n (Cpu2.andThen r f).1.s.node := by
  unfold Cpu2.andThen
  split
  · exact h.trans (hf _)
  · exact h

theorem Same.loop {f : Nat → Cpu2 → Cpu2 × Err} (hf : ∀ i c, Same c.s.node (f i c).1.s.node) :
    ∀ (is : List Nat) (c : Cpu2), Same c.s.node (Cpu2.loop f is c).1.s.node
  | [], c => .refl _
  | i :: is, c => Same.andThen (hf i c) fun m => Same.loop hf is m

theorem Same.silentAwake2 (env : Env) (c : Cpu2) (tp st : Nat) : Same (silenced env c.s.node tp st) (c.setSilentAwake env tp st).1.s.node := by
  unfold Cpu2.setSilentAwake silenced
  split
  · dsimp only
    split
    · exact Same.trans (b := { c.s.node with silent := upd c.s.node.silent tp st, log := .silentCb tp (c.s.node.rows tp).nr st :: c.s.node.log })
        ⟨fun _ => rfl, rfl, rfl⟩ (.syncOff ..)
    · split
      · exact Same.trans (b := { c.s.node with silent := upd c.s.node.silent tp st, log := .silentCb tp (c.s.node.rows tp).nr st :: c.s.node.log })
          ⟨fun _ => rfl, rfl, rfl⟩ (.syncOn ..)
      · exact ⟨fun _ => rfl, rfl, rfl⟩
  · exact .refl _

theorem Same.again2 (env : Env) (c : Cpu2) (tp : Nat) : Same c.s.node (c.setSilentAwake env tp (c.s.node.silent tp)).1.s.node := by
  refine Same.trans ?_ (.silentAwake2 ..)
  unfold silenced
  split
  · exact ⟨fun _ => rfl, rfl, upd_self ..⟩
  · exact .refl _

theorem Same.finish2 (env : Env) (c : Cpu2) (tp idx nr : Nat) (nrs : List Nat) : Same c.s.node (c.finish env tp idx nr nrs).1.s.node := by
  unfold Cpu2.finish
  dsimp only
  refine .andThen (.andThen (.andThen (.andThen (.defineCtrl ..) ?_) ?_) ?_) ?_
  · exact fun m => .define ..
  · exact fun m => .define ..
  · intro m; split
    · exact .define ..
    · exact .refl _
  · exact fun m => .again2 ..

theorem Same.setTx2 (env : Env) (tp nr : Nat) (c : Cpu2) : Same c.s.node (c.setTx env tp nr).1.s.node := by
  refine .loop (fun i c => ?_) _ _
  unfold Cpu2.setTx1
  extract_lets n1
  have h1 : Same c.s.node n1 := .setRow _ _ _ fun _ => by rfl
  split
  · exact h1
  · exact Same.thenOk (h1.trans (.define ..)) fun m => .addSlot ..

theorem Same.setModule2 (env : Env) (c : Cpu2) (tp : Nat) (tpl : Row) (x : Cpu2Row) (nr : Nat) (rx tx : Nat → Nat) :
    Same (c.s.node.fillRow tp tpl (effNr tp nr) rx tx) (c.setModule env tp tpl x nr rx tx).1.s.node := by
  unfold Cpu2.setModule
  dsimp only
  generalize hc : (c.setX tp fun _ => x).setNode (c.s.node.fillRow tp tpl (effNr tp nr) rx tx) = c1
  have e1 : c.s.node.fillRow tp tpl (effNr tp nr) rx tx = c1.s.node := by rw [← hc]; rfl
  rw [e1]
  refine .andThen (.setTx2 ..) fun m => .andThen (.setRx ..) fun m => ?_
  refine Same.trans (.finish2 env m tp m.s.node.nrMod (effNr tp nr) ((List.range (tp + 1)).map fun i => (m.s.node.rows i).nr)) ?_
  generalize m.finish env tp m.s.node.nrMod (effNr tp nr) ((List.range (tp + 1)).map fun i => (m.s.node.rows i).nr) = r
  exact ⟨fun _ => rfl, rfl, rfl⟩

theorem Same.renumTx2 (env : Env) (tp nr : Nat) (c : Cpu2) : Same c.s.node (c.renumTx env tp nr).1.s.node :=
  .loop (fun i c => .define ..) _ _

/-! ## Both -/

/-- the build options and the voter both CPUs share -/
structure Build (e e' : Env) : Prop where
  maxMod : e'.maxMod = e.maxMod
  sysObj2 : e'.sysObj2 = e.sysObj2
  serial : e'.serial = e.serial
  voter : e'.voter = e.voter

/-- two nodes with the same table; with the same silent states if `v` -/
structure Pair (v : Prop) (n m : Node) : Prop where
  rows : ∀ t, fixedPart (n.rows t) = fixedPart (m.rows t)
  chg : n.chg = m.chg
  silent : v → n.silent = m.silent

variable {v : Prop} {e e' : Env} {n m n' m' : Node}

theorem Pair.same (h : Pair v n m) (a : Same n n') (b : Same m m') : Pair v n' m' :=
  ⟨fun t => ((a.rows t).trans (h.rows t)).trans (b.rows t).symm, (a.chg.trans h.chg).trans b.chg.symm,
    fun x => (a.silent.trans (h.silent x)).trans b.silent.symm⟩

theorem Pair.typ (h : Pair v n m) (t : Nat) : (n.rows t).typ = (m.rows t).typ := by
  have := congrArg Row.typ (h.rows t); exact this
theorem Pair.nr (h : Pair v n m) (t : Nat) : (n.rows t).nr = (m.rows t).nr := by
  have := congrArg Row.nr (h.rows t); exact this

theorem Pair.findNr (h : Pair v n m) (b : Build e e') (nr : Nat) : m.findNr e' nr = n.findNr e nr := by
  unfold Node.findNr; rw [b.maxMod]; simp only [h.nr]
theorem Pair.findType (h : Pair v n m) (b : Build e e') (typ : List Byte) : m.findType e' typ = n.findType e typ := by
  unfold Node.findType; rw [b.maxMod]; simp only [h.typ]
theorem Pair.findTypeNr (h : Pair v n m) (b : Build e e') (typ : List Byte) (nr : Nat) : m.findTypeNr e' typ nr = n.findTypeNr e typ nr := by
  unfold Node.findTypeNr; rw [b.maxMod]; simp only [h.typ, h.nr]

theorem Pair.setRow (h : Pair v n m) (tp : Nat) (f g : Row → Row)
    (hf : fixedPart (f (n.rows tp)) = fixedPart (g (m.rows tp))) : Pair v (n.setRow tp f) (m.setRow tp g) := by
  refine ⟨fun t => ?_, h.chg, h.silent⟩
  show fixedPart (upd _ _ _ _) = fixedPart (upd _ _ _ _)
  by_cases q : t = tp
  · subst q; rw [upd_same, upd_same]; exact hf
  · rw [upd_other _ _ q, upd_other _ _ q]; exact h.rows t

theorem Pair.silenced (h : Pair v n m) (b : Build e e') (tp st : Nat) : Pair v (silenced e n tp st) (silenced e' m tp st) := by
  unfold Twin.silenced; rw [b.maxMod]
  split
  · exact ⟨h.rows, h.chg, fun x => by rw [h.silent x]⟩
  · exact h

theorem Pair.silentAwake {c : Cpu2} (h : Pair v n c.s.node) (b : Build e e') (tp st : Nat) :
    Pair v (n.setSilentAwake e tp st).1 (c.setSilentAwake e' tp st).1.s.node :=
  (h.silenced b tp st).same (.setSilentAwake ..) (.silentAwake2 ..)

theorem Pair.add {c : Cpu2} (h : Pair v n c.s.node) (b : Build e e') (tpl : Row) (x : Cpu2Row) (nr : Nat) (rx tx : Nat → Nat) :
    Pair v (n.addModule e tpl nr rx tx).1 (c.addModule e' tpl x nr rx tx).1.s.node := by
  have key : ∀ i nr, Pair v (n.setModule e i tpl nr rx tx).1 (c.setModule e' i tpl x nr rx tx).1.s.node := fun i nr =>
    Pair.same (h.setRow i (fun _ => { tpl with nr := effNr i nr, rx := rx, tx := tx, txObjSync := tpl.txObj })
      (fun _ => { tpl with nr := effNr i nr, rx := rx, tx := tx, txObjSync := tpl.txObj }) rfl) (.setModule ..) (.setModule2 ..)
  unfold Node.addModule Cpu2.addModule
  rw [b.maxMod]
  simp only [h.typ, h.nr]
  rcases (List.range e.maxMod).find? (fun i => decide ((c.s.node.rows i).typ = [])) with _ | i
  · exact h
  · dsimp only
    split
    · exact (key i _).same (.light (.report ..)) (.light (.report ..))
    · exact (key i _).same (.light (.report ..)) (.light (.report ..))

theorem Pair.changeNr {c : Cpu2} (h : Pair v n c.s.node) (b : Build e e') (typ : List Byte) (nr act : Nat) :
    Pair v (n.changeNr e typ nr act).1 (c.changeNr e' typ nr act).1.s.node := by
  unfold Node.changeNr Cpu2.changeNr
  rw [h.findTypeNr b]
  rcases n.findTypeNr e typ act with _ | tp
  · exact h.same ⟨fun _ => rfl, rfl, rfl⟩ ⟨fun _ => rfl, rfl, rfl⟩
  · dsimp only
    refine Pair.same (h.setRow tp (fun r => { r with nr := nr }) (fun r => { r with nr := nr }) ?_) ?_ ?_
    · exact congrArg (fun r : Row => { r with nr := nr }) (h.rows tp)
    · exact .thenOk (.renumTx ..) fun m => .thenOk (.renumRx ..) fun m => .finish ..
    · generalize hc : c.setNode (c.s.node.setRow tp fun r => { r with nr := nr }) = c1
      have e1 : c.s.node.setRow tp (fun r => { r with nr := nr }) = c1.s.node := by rw [← hc]; rfl
      rw [e1]
      refine .andThen (.renumTx2 ..) fun m => .andThen ?_ fun m => .finish2 ..
      exact Same.renumRx ..

/-- two nodes, one of which has possibly been silenced further, while the voter is in use -/
theorem Pair.silent_any (hv : ¬ v) (h : Pair v n m) (tp st : Nat) (hn : n' = n ∨ Same (Twin.silenced e n tp st) n')
    (hm : m' = m ∨ Same (Twin.silenced e' m tp st) m') : Pair v n' m' := by
  have k : ∀ (e : Env) (n n' : Node), n' = n ∨ Same (Twin.silenced e n tp st) n' → (∀ t, fixedPart (n'.rows t) = fixedPart (n.rows t)) ∧ n'.chg = n.chg := by
    intro e n n' h
    rcases h with rfl | h
    · exact ⟨fun _ => rfl, rfl⟩
    · have : (Twin.silenced e n tp st).rows = n.rows ∧ (Twin.silenced e n tp st).chg = n.chg := by
        unfold Twin.silenced; split <;> exact ⟨rfl, rfl⟩
      exact ⟨fun t => by rw [h.rows, this.1], by rw [h.chg, this.2]⟩
  obtain ⟨a1, a2⟩ := k _ _ _ hn
  obtain ⟨b1, b2⟩ := k _ _ _ hm
  exact ⟨fun t => ((a1 t).trans (h.rows t)).trans (b1 t).symm, (a2.trans h.chg).trans b2.symm, fun x => absurd x hv⟩

theorem thenOk_or (r : Node × Err) (f : Node → Node × Err) : (Node.thenOk r f).1 = r.1 ∨ (Node.thenOk r f).1 = (f r.1).1 := by
  unfold Node.thenOk; split <;> simp
theorem andThen_or (r : Cpu2 × Err) (f : Cpu2 → Cpu2 × Err) : (Cpu2.andThen r f).1 = r.1 ∨ (Cpu2.andThen r f).1 = (f r.1).1 := by
  unfold Cpu2.andThen; split <;> simp

theorem Pair.changeModuleNr {c : Cpu2} (hv : v → e.voter = none) (h : Pair v n c.s.node) (b : Build e e') (tp nr : Nat) :
    Pair v (n.changeModuleNr e tp nr).1 (c.changeModuleNr e' tp nr).1.s.node := by
  unfold Node.changeModuleNr Cpu2.changeModuleNr
  dsimp only
  rw [b.voter, ← h.typ, ← h.nr]
  have key := h.changeNr b (n.rows tp).typ nr (n.rows tp).nr
  have sil : e.voter ≠ none → ∀ st,
      Pair v (Node.thenOk (n.changeNr e (n.rows tp).typ nr (n.rows tp).nr) fun n => n.setSilentAwake e tp st).1
        (Cpu2.andThen (c.changeNr e' (n.rows tp).typ nr (n.rows tp).nr) fun c => c.setSilentAwake e' tp st).1.s.node := by
    intro hvo st
    refine Pair.silent_any (e := e) (e' := e') (fun x => hvo (hv x)) key tp st ?_ ?_
    · rcases thenOk_or (n.changeNr e (n.rows tp).typ nr (n.rows tp).nr) fun n => n.setSilentAwake e tp st with q | q
      · exact .inl q
      · rw [q]; exact .inr (.setSilentAwake ..)
    · rcases andThen_or (c.changeNr e' (n.rows tp).typ nr (n.rows tp).nr) fun c => c.setSilentAwake e' tp st with q | q
      · rw [q]; exact .inl rfl
      · rw [q]; exact .inr (.silentAwake2 ..)
  rcases hw : e.voter with _ | w
  · exact key
  · dsimp only
    have hne : e.voter ≠ none := by rw [hw]; simp
    rcases w (n.rows tp).typ nr (n.rows tp).nr with _ | _ | _ | _
    · exact sil hne 1
    · exact h
    · exact h
    · exact sil hne 0

/-- the row after a type change -/
def retype (k : ChgType) (r : Row) : Row :=
  { r with typ := k.row.typ
           rxObj := k.row.rxObj, rxObjSync := k.row.rxObjSync
           rx := k.row.rx, rxDlc := k.row.rxDlc, rxMain := k.row.rxMain
           rxDlcSync := k.row.rxDlc, rxMainSync := k.row.rxMainSync
           txObj := k.row.txObj, txObjSync := k.row.txObjSync
           tx := k.row.tx, txDlc := k.row.txDlc, txMain := k.row.txMain
           txDlcSync := k.row.txDlc, txMainSync := k.row.txMainSync }

theorem Same.changeType (env : Env) (n : Node) (tp : Nat) (typ : List Byte) (k : ChgType) (hk : n.chg tp = some k)
    (ht : k.row.typ.take 4 = typ.take 4) : Same (n.setRow tp (retype k)) (n.changeType env tp typ).1 := by
  unfold Node.changeType
  rw [hk]
  dsimp only
  rw [if_pos ht]
  have e0 : n.setRow tp (fun r =>
      { r with typ := k.row.typ
               rxObj := k.row.rxObj, rxObjSync := k.row.rxObjSync
               rx := k.row.rx, rxDlc := k.row.rxDlc, rxMain := k.row.rxMain
               rxDlcSync := k.row.rxDlc, rxMainSync := k.row.rxMainSync
               txObj := k.row.txObj, txObjSync := k.row.txObjSync
               tx := k.row.tx, txDlc := k.row.txDlc, txMain := k.row.txMain
               txDlcSync := k.row.txDlc, txMainSync := k.row.txMainSync }) = n.setRow tp (retype k) := rfl
  rw [e0]
  generalize n.setRow tp (retype k) = n1
  refine Same.trans (b := { n1 with tx := { n1.tx with reg := 0, last := 0 } }) ⟨fun _ => rfl, rfl, rfl⟩ ?_
  generalize ({ n1 with tx := { n1.tx with reg := 0, last := 0 } } : Node) = n2
  refine Same.trans (Same.retx env (List.range n1.nrMod) (n2, E.ok)) ?_
  generalize Node.retx env (List.range n1.nrMod) (n2, E.ok) = r
  split <;> exact ⟨fun _ => rfl, rfl, rfl⟩

theorem Pair.changeType (h : Pair v n m) (tp : Nat) (typ : List Byte) : Pair v (n.changeType e tp typ).1 (m.changeType e' tp typ).1 := by
  rcases hk : n.chg tp with _ | k
  · have hm : m.chg tp = none := by rw [← h.chg]; exact hk
    unfold Node.changeType; rw [hk, hm]; exact h
  · have hm : m.chg tp = some k := by rw [← h.chg]; exact hk
    by_cases ht : k.row.typ.take 4 = typ.take 4
    · refine Pair.same (h.setRow tp (retype k) (retype k) ?_) (.changeType e n tp typ k hk ht) (.changeType e' m tp typ k hm ht)
      have := h.nr tp
      unfold fixedPart retype; rw [this]
    · unfold Node.changeType; rw [hk, hm]; dsimp only; rw [if_neg ht, if_neg ht]; exact h

theorem Pair.changeTypeAdd (h : Pair v n m) (b : Build e e') (typ : List Byte) (tpl : Row) (rx tx : Nat → Nat) (cb : Bool) :
    Pair v (n.changeTypeAdd e typ tpl rx tx cb).1 (m.changeTypeAdd e' typ tpl rx tx cb).1 := by
  unfold Node.changeTypeAdd
  rw [h.findType b]
  split
  · exact ⟨h.rows, by rw [h.chg], h.silent⟩
  · exact h

/-- the table after `lcsa_init` -/
def wiped (env : Env) (n : Node) : Node :=
  { n with rows := fun i => if i < env.maxMod then { n.rows i with typ := [] } else n.rows i }

theorem Same.init (env : Env) (n : Node) : Same (wiped env n) (n.init env).1 := by
  unfold Node.init
  extract_lets _ n1 r1 r2 r3 r4
  have h0 : Same (wiped env n) n1 := ⟨fun _ => rfl, rfl, rfl⟩
  clear_value n1
  refine .thenOk (.thenOk (.thenOk (.thenOk (h0.trans (.define ..)) ?_) ?_) ?_) ?_
  · exact fun m => .define ..
  · intro m; split
    · exact .define ..
    · exact .refl _
  · exact fun m => .define ..
  · exact fun m => .define ..

theorem Pair.init (h : Pair v n m) (b : Build e e') : Pair v (n.init e).1 (m.init e').1 := by
  refine Pair.same (n := wiped e n) (m := wiped e' m) ⟨fun t => ?_, h.chg, h.silent⟩ (.init e n) (.init e' m)
  unfold wiped
  dsimp only
  rw [b.maxMod]
  split
  · exact congrArg (fun r : Row => { r with typ := [] }) (h.rows t)
  · exact h.rows t

/-! ## Messages -/

/-- system messages that do not concern the table, on the monitor CPU -/
theorem sysMsg2_light (c : Cpu2) (nr dlc : Nat) (src : List Byte) (ht : ¬ tableCmd (at8 src 0)) (r : Cpu2 × Err)
    (hr : c.sysMsg e nr dlc src = some r) : Light c.s.node r.1.s.node := by
  have ne : ∀ k, (k = 0x20 ∨ k = 0x21 ∨ k = 0x22 ∨ k = 0x31) → at8 src 0 = k → False := by
    rintro k hk rfl; exact ht hk
  unfold Cpu2.sysMsg at hr
  split at hr
  · cases hr; exact .refl _
  extract_lets s dst s1 rb t z nd at hr
  clear_value dst
  split at hr
  · cases hr; exact .refl _
  split at hr
  · cases hr; exact .refl _
  split at hr
  · have h1 : Light c.s.node s1.node := Cpu2.statusRequest_light e _
    split at hr
    · rcases hd : Cpu2.drain e s1.node.errq.count (s1.node, E.ok) with _ | x
      · rw [hd] at hr; cases hr
      · rw [hd] at hr; rw [← Option.some.inj hr]
        exact h1.trans (Cpu2.drain_light _ _ _ _ hd)
    · rw [← Option.some.inj hr]; exact h1
  · split at hr
    · cases hr; exact .refl _
    · rw [← Option.some.inj hr]; exact .refl _
  · cases hr; exact .refl _
  · cases hr; exact .refl _
  · split at hr
    · rw [← Option.some.inj hr]; exact ⟨rfl, rfl, rfl, rfl, rfl, rfl, rfl, rfl⟩
    · cases hr; exact .refl _
  · rw [← Option.some.inj hr]
    show Light c.s.node (setCycle e c.s (at8 src 2)).1.node
    unfold setCycle; split <;> exact .refl _
  · cases hr; exact .refl _
  · cases hr; exact .refl _
  · next hc => exact (ne _ (by simp) hc).elim
  · next hc => exact (ne _ (by simp) hc).elim
  · next hc => exact (ne _ (by simp) hc).elim
  · cases hr; exact .refl _
  · split at hr
    · rw [← Option.some.inj hr]; exact ⟨rfl, rfl, rfl, rfl, rfl, rfl, rfl, rfl⟩
    · cases hr; exact .refl _
  · next hc => exact (ne _ (by simp) hc).elim
  · cases hr; exact .refl _

theorem Pair.sysSilent {s : Slave} {c : Cpu2} (h : Pair v s.node c.s.node) (b : Build e e') (src : List Byte) (nr st : Nat) :
    Pair v (Slave.sysSilentAwake e s src nr st).1.node (c.sysSilentAwake e' src nr st).1.s.node := by
  unfold Slave.sysSilentAwake Cpu2.sysSilentAwake
  rw [b.serial, h.findNr b]
  by_cases q : e.serial = serialOf src
  · rw [if_pos q, if_pos q]
    rcases s.node.findNr e nr with _ | tp
    · exact h
    · dsimp only
      rw [← h.typ]
      by_cases w : (s.node.rows tp).typ.take 4 = typeOf src
      · rw [if_pos w, if_pos w]; exact h.silentAwake b tp st
      · rw [if_neg w, if_neg w]; exact h
  · rw [if_neg q, if_neg q]; exact h

theorem Pair.sysMsg {s s' : Slave} {c : Cpu2} {r : Cpu2 × Err} {x : Err} (hv : v → e.voter = none) (h : Pair v s.node c.s.node) (b : Build e e')
    (nr dlc : Nat) (src : List Byte) (h1 : Slave.sysMsg e s nr dlc src = some (s', x)) (h2 : c.sysMsg e' nr dlc src = some r) :
    Pair v s'.node r.1.s.node := by
  by_cases ht : tableCmd (at8 src 0)
  · have key : ∀ {y : Err} {w : Slave × Err}, some (s, y) = some (s', x) → s'.node = s.node := by
      intro y w q; have := congrArg Prod.fst (Option.some.inj q); dsimp only at this; rw [← this]
    unfold Slave.sysMsg at h1
    unfold Cpu2.sysMsg at h2
    by_cases hd : dlc ≠ 8
    · rw [if_pos hd] at h1 h2; cases h1; cases h2; exact h
    · rw [if_neg hd] at h1 h2
      dsimp only at h1 h2
      by_cases hn : nr = 1
      · subst hn
        simp only [if_true, ne_eq, not_true_eq_false, false_and, if_false, true_and] at h1 h2
        have e1 : s'.node = s.node := by
          split at h1
          · cases h1; rfl
          · rcases ht with q | q | q | q <;> rw [q] at h1 <;> cases h1 <;> rfl
        have e2 : r.1.s.node = c.s.node := by
          split at h2
          · cases h2; rfl
          · rcases ht with q | q | q | q <;> rw [q] at h2 <;> cases h2 <;> rfl
        rw [e1, e2]; exact h
      · simp only [if_neg hn] at h1 h2
        simp only [hn, ne_eq, not_false_eq_true, true_and, false_and, if_false] at h1 h2
        rw [h.findNr b] at h2
        rcases hf : s.node.findNr e nr with _ | tp
        · rw [hf] at h1 h2; simp only [if_true] at h1 h2; cases h1; cases h2; exact h
        · rw [hf] at h1 h2
          simp only [reduceCtorEq, if_false] at h1 h2
          rcases ht with q | q | q | q <;> rw [q] at h1 h2
          · rw [b.serial] at h2
            by_cases w : e.serial = serialOf src
            · rw [if_pos w] at h1 h2
              have a1 := congrArg Prod.fst (Option.some.inj h1); dsimp only at a1
              rw [← a1, ← Option.some.inj h2]
              exact h.changeModuleNr hv b tp _
            · rw [if_neg w] at h1 h2; cases h1; cases h2; exact h
          · have a1 := congrArg Prod.fst (Option.some.inj h1); dsimp only at a1
            rw [← a1, ← Option.some.inj h2]
            exact h.sysSilent b src nr 0
          · have a1 := congrArg Prod.fst (Option.some.inj h1); dsimp only at a1
            rw [← a1, ← Option.some.inj h2]
            exact h.sysSilent b src nr 1
          · replace h1 : (if e.serial = serialOf src then some ({ s with node := (s.node.changeType e tp (typeOf src)).1 }, E.ok)
              else some (s, E.ok)) = some (s', x) := h1
            replace h2 : (if e'.serial = serialOf src then some (c.setNode (c.s.node.changeType e' tp (typeOf src)).1, E.ok)
              else some (c, E.ok)) = some r := h2
            rw [b.serial] at h2
            by_cases w : e.serial = serialOf src
            · rw [if_pos w] at h1 h2
              have a1 := congrArg Prod.fst (Option.some.inj h1); dsimp only at a1
              rw [← a1, ← Option.some.inj h2]
              exact h.changeType tp _
            · rw [if_neg w] at h1 h2; cases h1; cases h2; exact h
  · exact h.same (.light ((Slave.sysMsg_keeps h1).2.1 ht)) (.light (sysMsg2_light _ _ _ _ ht _ h2))

/-! ## Histories -/

/-- what concerns the table: a system message, a call of the application acting on the table, `lcsa_init` -/
inductive _root_.LiCan.Spec.TabIn
  | message (id dlc : Nat) (data : List Byte)
  | call (o : Op)
  | init

/-- what an input of the main CPU means for its table -/
def _root_.LiCan.Spec.tabIn (env : Env) : In → List TabIn
  | .frame _ obj dlc id data => if obj = 2 ∨ (obj = 3 ∧ env.sysObj2 = true) then [.message id dlc data] else []
  | .table .process => []
  | .table o => [.call o]
  | .init _ => [.init]
  | _ => []

/-- what an input of the monitor CPU means for its table -/
def _root_.LiCan.Spec.tabIn2 (env : Env) : Cpu2.CIn → List TabIn
  | .api i => tabIn env i
  | .add tpl _ nr rx tx => [.call (.add tpl nr rx tx)]
  | _ => []

theorem step_light {s s' : Slave} {i : In} (hq : ReqInv s) (ht : tabIn e i = []) (h : Slave.step e s i = some s') : Light s.node s'.node := by
  cases i with
  | frame now obj dlc id data =>
    have h' : Slave.handlerRx e s now obj dlc id data = some s' := h
    rw [handlerRx_eq] at h'
    have d := dataPart_keeps e s obj dlc id data
    have hd : ReqInv (dataPart e s obj dlc id data) := by
      obtain ⟨-, -, -, -, -, c, hc, -⟩ := d
      exact hq.congr (by rw [hc]) (by rw [hc]) (by rw [hc])
    have h1 := d.1
    generalize dataPart e s obj dlc id data = s1 at *
    have ho : ¬ (obj = 2 ∨ (obj = 3 ∧ e.sysObj2 = true)) := by
      intro q; simp only [tabIn, if_pos q] at ht; cases ht
    rw [if_neg ho] at h'
    unfold reqPart at h'
    split at h'
    · exact h1.trans (hd.request h').2.2.2
    · injection h' with h'; rw [← h']; exact h1
  | table o =>
    cases o <;> first | (simp [tabIn] at ht; done) | skip
    injection h with h; subst h
    show Light s.node (Node.step e s.node .process).1
    unfold Node.step
    dsimp only
    rcases hp : sendProcessData e s.node with _ | n
    · exact .refl _
    · exact Light.sendProcess hp
  | init baud => simp [tabIn] at ht
  | trigger now =>
    injection h with h; subst h
    obtain ⟨p, hp⟩ := trigger_eq e s now
    rw [hp]; exact .refl _
  | setCycle t =>
    injection h with h; subst h
    unfold setCycle; split <;> exact .refl _
  | validCb typ nr f =>
    injection h with h; subst h
    rcases setModCb_keeps e s typ nr (fun v tp => { v with validCb := upd v.validCb tp f }) with e | ⟨tp, e⟩ <;> rw [e] <;> exact .refl _
  | invalidCb typ nr f =>
    injection h with h; subst h
    rcases setModCb_keeps e s typ nr (fun v tp => { v with invalidCb := upd v.invalidCb tp f }) with e | ⟨tp, e⟩ <;> rw [e] <;> exact .refl _
  | reqCb typ nr f =>
    injection h with h; subst h
    rcases setModCb_keeps e s typ nr (fun v tp => { v with reqCb := upd v.reqCb tp f }) with e | ⟨tp, e⟩ <;> rw [e] <;> exact .refl _
  | timeCb f =>
    injection h with h; subst h
    unfold setTimeCb; split <;> exact .refl _
  | resetCb f =>
    injection h with h; subst h
    unfold setResetCb; split <;> exact .refl _
  | getPeriode => injection h with h; subst h; exact .refl _
  | setMode m => injection h with h; subst h; exact .refl _
  | setBaud b => injection h with h; subst h; exact .refl _
  | allCb f => injection h with h; subst h; exact .refl _
  | firstCb f => injection h with h; subst h; exact .refl _
  | firstStatusCb f => injection h with h; subst h; exact .refl _

/-- a system message on the main CPU -/
theorem message_main {s s' : Slave} {now obj dlc id : Nat} {data : List Byte} (ho : obj = 2 ∨ (obj = 3 ∧ e.sysObj2 = true))
    (h : Slave.step e s (.frame now obj dlc id data) = some s') :
    ∃ s1 s2 x, Light s.node s1.node ∧ Slave.sysMsg e s1 (sysNrOfId id) dlc data = some (s2, x) ∧ Light s2.node s'.node := by
  have h' : Slave.handlerRx e s now obj dlc id data = some s' := h
  rw [handlerRx_eq] at h'
  have d := (dataPart_keeps e s obj dlc id data).1
  generalize dataPart e s obj dlc id data = s1 at *
  rw [if_pos ho] at h'
  have hne : obj ≠ 0 := by omega
  unfold reqPart at h'
  rw [if_neg hne] at h'
  simp only [Option.bind_some, sysPart, Option.map_eq_some_iff] at h'
  obtain ⟨⟨r, x⟩, h4, h5⟩ := h'
  subst h5
  exact ⟨s1, r, x, d, h4, .report ..⟩

theorem data2_light (c : Cpu2) (obj dlc id : Nat) (data : List Byte) :
    Light c.s.node (if Node.bit obj &&& c.s.node.hw.isrRx ≠ 0 then
      match c.s.node.slotRow obj with
      | some tp => (c.rxData e tp id dlc data).1
      | none => c
    else c).s.node := by
  split
  · split
    · exact (Cpu2.rxData_light ..).1
    · exact .refl _
  · exact .refl _

/-- a system message on the monitor CPU -/
theorem message_mon {c c' : Cpu2} {now obj dlc id : Nat} {data : List Byte} (ho : obj = 2 ∨ (obj = 3 ∧ e.sysObj2 = true))
    (h : Cpu2.step e c (.api (.frame now obj dlc id data)) = some c') :
    ∃ c1 r, Light c.s.node c1.s.node ∧ Cpu2.sysMsg e c1 (sysNrOfId id) dlc data = some r ∧ Light r.1.s.node c'.s.node := by
  have h' : c.handlerRx e now obj dlc id data = some c' := h
  unfold Cpu2.handlerRx at h'
  extract_lets c1 c2 at h'
  have h1 : Light c.s.node c1.s.node := data2_light c obj dlc id data
  have h2 : c2 = c1 := if_neg (by omega)
  clear_value c1 c2
  subst h2
  rw [if_pos ho] at h'
  simp only [Option.map_eq_some_iff] at h'
  obtain ⟨r, h4, h5⟩ := h'
  subst h5
  exact ⟨c2, r, h1, h4, Light.report ..⟩

theorem step2_light {c c' : Cpu2} {i : Cpu2.CIn} (ht : tabIn2 e i = []) (h : Cpu2.step e c i = some c') : Light c.s.node c'.s.node := by
  cases i with
  | api i =>
    cases i with
    | frame now obj dlc id data =>
      have h' : c.handlerRx e now obj dlc id data = some c' := h
      unfold Cpu2.handlerRx at h'
      extract_lets c1 c2 at h'
      have h1 : Light c.s.node c1.s.node := data2_light c obj dlc id data
      have h2 : Light c1.s.node c2.s.node := by
        show Light _ (if _ then _ else _ : Cpu2).s.node
        split
        · exact (Cpu2.processRequest_light ..).1
        · exact .refl _
      clear_value c2
      have ho : ¬ (obj = 2 ∨ (obj = 3 ∧ e.sysObj2 = true)) := by
        intro q; simp only [tabIn2, tabIn, if_pos q] at ht; cases ht
      rw [if_neg ho] at h'
      rw [← Option.some.inj h']; exact h1.trans h2
    | table o =>
      cases o <;> first | (simp [tabIn2, tabIn] at ht; done) | skip
      simp only [Cpu2.step, Option.some.injEq] at h; subst h; exact .refl _
    | init baud => simp [tabIn2, tabIn] at ht
    | trigger now =>
      simp only [Cpu2.step, Slave.step, Option.map_some, Option.some.injEq] at h; subst h
      obtain ⟨p, hp⟩ := trigger_eq e c.s now
      show Light _ (Slave.trigger e c.s now).node
      rw [hp]; exact .refl _
    | setCycle t =>
      simp only [Cpu2.step, Slave.step, Option.map_some, Option.some.injEq] at h; subst h
      show Light _ (Slave.setCycle e c.s t).1.node
      unfold setCycle; split <;> exact .refl _
    | validCb typ nr f | invalidCb typ nr f | reqCb typ nr f =>
      simp only [Cpu2.step, Slave.step, Option.map_some, Option.some.injEq] at h; subst h
      show Light _ (setModCb e c.s typ nr _).1.node
      unfold setModCb; split <;> exact .refl _
    | timeCb f =>
      simp only [Cpu2.step, Slave.step, Option.map_some, Option.some.injEq] at h; subst h
      show Light _ (setTimeCb c.s f).node
      unfold setTimeCb; split <;> exact .refl _
    | resetCb f =>
      simp only [Cpu2.step, Slave.step, Option.map_some, Option.some.injEq] at h; subst h
      show Light _ (setResetCb c.s f).node
      unfold setResetCb; split <;> exact .refl _
    | getPeriode | setMode m | setBaud b | allCb f | firstCb f | firstStatusCb f =>
      simp only [Cpu2.step, Slave.step, Option.map_some, Option.some.injEq] at h; subst h
      exact .refl _
  | add tpl x nr rx tx => simp [tabIn2] at ht
  | process now bus lec =>
    simp only [Cpu2.step, Option.some.injEq] at h; subst h
    obtain ⟨p, hp⟩ := trigger_eq e c.s now
    show Light _ (Slave.trigger e c.s now).node
    rw [hp]; exact .refl _
  | start => simp only [Cpu2.step, Option.some.injEq] at h; subst h; exact .refl _

theorem Pair.call {c : Cpu2} (hv : v → e.voter = none) (h : Pair v n c.s.node) (b : Build e e') (o : Op) (ho : o ≠ .process) :
    Pair v (n.step e o).1 (c.table e' o).1.s.node := by
  cases o with
  | add tpl nr rx tx => exact h.add b tpl {} nr rx tx
  | silentAwake tp st => exact h.silentAwake b tp st
  | silentAwakeBy typ nr st =>
    show Pair v (n.setSilentAwakeBy e typ nr st).1 (c.setSilentAwakeBy e' typ nr st).1.s.node
    unfold Node.setSilentAwakeBy Cpu2.setSilentAwakeBy
    rw [h.findTypeNr b]
    rcases n.findTypeNr e typ nr with _ | tp
    · exact h
    · exact h.silentAwake b tp st
  | setActive typ =>
    show Pair v (n.setActive e typ).1 (c.setActive e' typ).1.s.node
    unfold Node.setActive Cpu2.setActive
    rw [h.findType b]
    rcases n.findType e typ with _ | tp
    · exact h
    · exact h.same (.syncOn ..) (.syncOn ..)
  | setCritical typ =>
    show Pair v (n.setCritical e typ).1 (c.setCritical e' typ).1.s.node
    unfold Node.setCritical Cpu2.setCritical
    rw [h.findType b]
    rcases n.findType e typ with _ | tp
    · exact h
    · exact h.same (.syncOff ..) (.syncOff ..)
  | process => exact absurd rfl ho
  | changeNr typ nr act => exact h.changeNr b typ nr act
  | changeModuleNr tp nr => exact h.changeModuleNr hv b tp nr
  | changeTypeAdd typ tpl rx tx cb => exact h.changeTypeAdd b typ tpl rx tx cb
  | changeType tp typ => exact h.changeType tp typ

theorem tabIn_one {i : In} {x : TabIn} {xs : List TabIn} (h : tabIn e i = x :: xs) : xs = [] := by
  unfold tabIn at h
  split at h
  · split at h <;> simp_all
  all_goals simp_all
theorem tabIn2_one {i : Cpu2.CIn} {x : TabIn} {xs : List TabIn} (h : tabIn2 e i = x :: xs) : xs = [] := by
  unfold tabIn2 at h
  split at h
  · exact tabIn_one h
  all_goals simp_all

/-- one thing happening to both tables -/
theorem Pair.step {s s' : Slave} {c c' : Cpu2} {i : In} {j : Cpu2.CIn} {x : TabIn} (hv : v → e.voter = none)
    (h : Pair v s.node c.s.node) (b : Build e e') (hi : tabIn e i = [x]) (hj : tabIn2 e' j = [x])
    (h1 : Slave.step e s i = some s') (h2 : Cpu2.step e' c j = some c') : Pair v s'.node c'.s.node := by
  have inv1 : (∃ now obj dlc id data, i = .frame now obj dlc id data ∧ (obj = 2 ∨ (obj = 3 ∧ e.sysObj2 = true)) ∧ x = .message id dlc data) ∨
      (∃ o, o ≠ .process ∧ i = .table o ∧ x = .call o) ∨ (∃ baud, i = .init baud ∧ x = .init) := by
    unfold tabIn at hi
    split at hi
    · split at hi
      · next q => simp only [List.cons.injEq, and_true] at hi; exact .inl ⟨_, _, _, _, _, rfl, q, hi.symm⟩
      · cases hi
    · cases hi
    · next o q => simp only [List.cons.injEq, and_true] at hi; exact .inr (.inl ⟨_, q, rfl, hi.symm⟩)
    · simp only [List.cons.injEq, and_true] at hi; exact .inr (.inr ⟨_, rfl, hi.symm⟩)
    · cases hi
  rcases inv1 with ⟨now, obj, dlc, id, data, rfl, ho, rfl⟩ | ⟨o, ho, rfl, rfl⟩ | ⟨baud, rfl, rfl⟩
  · have : ∃ now obj, j = .api (.frame now obj dlc id data) ∧ (obj = 2 ∨ (obj = 3 ∧ e'.sysObj2 = true)) := by
      unfold tabIn2 at hj
      split at hj
      · unfold tabIn at hj
        split at hj
        · split at hj
          · next q => simp only [List.cons.injEq, TabIn.message.injEq, and_true] at hj; obtain ⟨rfl, rfl, rfl⟩ := hj; exact ⟨_, _, rfl, q⟩
          · cases hj
        all_goals simp at hj
      all_goals simp at hj
    obtain ⟨now', obj', rfl, ho'⟩ := this
    obtain ⟨s1, s2, y, l1, m1, l2⟩ := message_main ho h1
    obtain ⟨c1, r, k1, m2, k2⟩ := message_mon ho' h2
    exact ((h.same (.light l1) (.light k1)).sysMsg hv b _ _ _ m1 m2).same (.light l2) (.light k2)
  · injection h1 with h1; subst h1
    have : (j = .api (.table o)) ∨ (∃ tpl y nr rx tx, j = .add tpl y nr rx tx ∧ o = .add tpl nr rx tx) := by
      unfold tabIn2 at hj
      split at hj
      · unfold tabIn at hj
        split at hj
        · split at hj <;> simp at hj
        · cases hj
        · simp only [List.cons.injEq, TabIn.call.injEq, and_true] at hj; subst hj; exact .inl rfl
        all_goals simp at hj
      · simp only [List.cons.injEq, TabIn.call.injEq, and_true] at hj; exact .inr ⟨_, _, _, _, _, rfl, hj.symm⟩
      · cases hj
    rcases this with rfl | ⟨tpl, y, nr, rx, tx, rfl, rfl⟩
    · simp only [Cpu2.step, Option.some.injEq] at h2; subst h2
      exact h.call hv b o ho
    · simp only [Cpu2.step, Option.some.injEq] at h2; subst h2
      exact h.add b tpl y nr rx tx
  · have : ∃ baud, j = .api (.init baud) := by
      unfold tabIn2 at hj
      split at hj
      · unfold tabIn at hj
        split at hj
        · split at hj <;> simp at hj
        all_goals first | (simp at hj; done) | exact ⟨_, rfl⟩
      all_goals simp at hj
    obtain ⟨baud', rfl⟩ := this
    have k : ∀ (e : Env) (s : Slave) (b : Nat), (Slave.init e s b).1.node = (s.node.init e).1 := by
      intro e s b; unfold Slave.init; dsimp only; split <;> rfl
    have e1 : s'.node = (s.node.init e).1 := by
      simp only [Slave.step, Option.some.injEq] at h1
      rw [← h1, k]
    have e2 : c'.s.node = (c.s.node.init e').1 := by
      simp only [Cpu2.step, Slave.step, Option.map_some, Option.some.injEq] at h2
      have := congrArg (fun c : Cpu2 => c.s.node) h2
      dsimp only at this
      rw [← this, k]
    rw [e1, e2]; exact h.init b

theorem split_main : ∀ (is : List In) (s s' : Slave), ReqInv s → Slave.run e s is = some s' →
    (is.flatMap (tabIn e) = [] → Light s.node s'.node) ∧
    ∀ x xs, is.flatMap (tabIn e) = x :: xs → ∃ s1 i s2 js, Light s.node s1.node ∧ tabIn e i = [x] ∧ Slave.step e s1 i = some s2 ∧ ReqInv s2 ∧
      Slave.run e s2 js = some s' ∧ js.flatMap (tabIn e) = xs
  | [], s, s', hq, h => by
    refine ⟨fun _ => ?_, fun x xs q => by simp at q⟩
    rw [← Option.some.inj h]; exact .refl _
  | i :: is, s, s', hq, h => by
    rcases hs : Slave.step e s i with _ | s1
    · simp [Slave.run, hs] at h
    · simp only [Slave.run, hs, Option.bind_some] at h
      have hq1 : ReqInv s1 := hq.step hs
      obtain ⟨a, b⟩ := split_main is s1 s' hq1 h
      rw [List.flatMap_cons]
      rcases ht : tabIn e i with _ | ⟨y, ys⟩
      · have l := step_light hq ht hs
        refine ⟨fun q => l.trans (a q), fun x xs q => ?_⟩
        obtain ⟨s2, j, s3, js, l2, r⟩ := b x xs q
        exact ⟨s2, j, s3, js, l.trans l2, r⟩
      · have := tabIn_one ht; subst this
        refine ⟨fun q => by simp at q, fun x xs q => ?_⟩
        simp only [List.cons_append, List.nil_append, List.cons.injEq] at q
        obtain ⟨rfl, rfl⟩ := q
        exact ⟨s, i, s1, is, .refl _, ht, hs, hq1, h, rfl⟩

theorem split_mon : ∀ (is : List Cpu2.CIn) (c c' : Cpu2), Cpu2.run e c is = some c' →
    (is.flatMap (tabIn2 e) = [] → Light c.s.node c'.s.node) ∧
    ∀ x xs, is.flatMap (tabIn2 e) = x :: xs → ∃ c1 i c2 js, Light c.s.node c1.s.node ∧ tabIn2 e i = [x] ∧ Cpu2.step e c1 i = some c2 ∧
      Cpu2.run e c2 js = some c' ∧ js.flatMap (tabIn2 e) = xs
  | [], c, c', h => by
    refine ⟨fun _ => ?_, fun x xs q => by simp at q⟩
    rw [← Option.some.inj h]; exact .refl _
  | i :: is, c, c', h => by
    rcases hs : Cpu2.step e c i with _ | c1
    · simp [Cpu2.run, hs] at h
    · simp only [Cpu2.run, hs, Option.bind_some] at h
      obtain ⟨a, b⟩ := split_mon is c1 c' h
      rw [List.flatMap_cons]
      rcases ht : tabIn2 e i with _ | ⟨y, ys⟩
      · have l := step2_light ht hs
        refine ⟨fun q => l.trans (a q), fun x xs q => ?_⟩
        obtain ⟨c2, j, c3, js, l2, r⟩ := b x xs q
        exact ⟨c2, j, c3, js, l.trans l2, r⟩
      · have := tabIn2_one ht; subst this
        refine ⟨fun q => by simp at q, fun x xs q => ?_⟩
        simp only [List.cons_append, List.nil_append, List.cons.injEq] at q
        obtain ⟨rfl, rfl⟩ := q
        exact ⟨c, i, c1, is, .refl _, ht, hs, h, rfl⟩

theorem Pair.run (hv : v → e.voter = none) (b : Build e e') : ∀ (xs : List TabIn) (is : List In) (js : List Cpu2.CIn) (s s' : Slave) (c c' : Cpu2),
    ReqInv s → Pair v s.node c.s.node → is.flatMap (tabIn e) = xs → js.flatMap (tabIn2 e') = xs →
    Slave.run e s is = some s' → Cpu2.run e' c js = some c' → Pair v s'.node c'.s.node
  | [], is, js, s, s', c, c', hq, h, hi, hj, r1, r2 =>
    h.same (.light ((split_main is s s' hq r1).1 hi)) (.light ((split_mon js c c' r2).1 hj))
  | x :: xs, is, js, s, s', c, c', hq, h, hi, hj, r1, r2 => by
    obtain ⟨s1, i, s2, is', l1, t1, a1, q1, r1', f1⟩ := (split_main is s s' hq r1).2 x xs hi
    obtain ⟨c1, j, c2, js', l2, t2, a2, r2', f2⟩ := (split_mon js c c' r2).2 x xs hj
    exact Pair.run hv b xs is' js' s2 s' c2 c' q1 ((h.same (.light l1) (.light l2)).step hv b t1 t2 a1 a2) f1 f2 r1' r2'

end Twin
end LiCan
