import Verif.Lemmas.OwnedStack
import Verif.Lemmas.NodeTrace
/-! # The identifiers of the process data follow the current numbers -/
namespace LiCan
open Spec
namespace Node

/-- Every configured transmit object carries the current number of its row, only configured objects are switched on, and a row without
type has none. -/
structure Cur (env : Env) (n : Node) : Prop where
  lim : ∀ i, env.maxMod ≤ i → (n.rows i).typ = []
  free : ∀ i, (n.rows i).typ = [] → (n.rows i).txObj = 0
  tob : ∀ i, (n.rows i).txObj ≤ 4
  chg : ∀ i, n.chg i = none
  id : ∀ i j, j < (n.rows i).txObj → n.tx.id i j = syncTxId (n.rows i).nr j
  bits : ∀ p, n.tx.reg.getLsbD p = true → p % 4 < (n.rows (p / 4)).txObj

/-- numbers, types and identifiers stay; only configured objects are switched on -/
structure Keep (n n' : Node) : Prop where
  row : ∀ i, SameRow (n.rows i) (n'.rows i)
  id : n'.tx.id = n.tx.id
  chg : n'.chg = n.chg
  bits : (∀ i, (n.rows i).txObj ≤ 4) → ∀ p, n'.tx.reg.getLsbD p = true → n.tx.reg.getLsbD p = true ∨ p % 4 < (n.rows (p / 4)).txObj

variable {env : Env}

theorem Keep.refl (n : Node) : Keep n n := ⟨fun _ => same_refl _, rfl, rfl, fun _ _ h => .inl h⟩

theorem Keep.of {n n' : Node} (h1 : ∀ i, SameRow (n.rows i) (n'.rows i)) (h2 : n'.tx = n.tx) (h3 : n'.chg = n.chg) : Keep n n' :=
  ⟨h1, by rw [h2], h3, fun _ p hp => .inl (by rwa [h2] at hp)⟩

theorem Keep.trans {a b c : Node} (h : Keep a b) (g : Keep b c) : Keep a c := by
  refine ⟨fun i => ?_, g.id.trans h.id, g.chg.trans h.chg, fun h4 p hp => ?_⟩
  · obtain ⟨a1, a2, a3, a4⟩ := h.row i
    obtain ⟨b1, b2, b3, b4⟩ := g.row i
    exact ⟨b1.trans a1, b2.trans a2, b3.trans a3, b4.trans a4⟩
  · rcases g.bits (fun i => by rw [(h.row i).2.2.1]; exact h4 i) p hp with hp | hp
    · exact h.bits h4 p hp
    · exact .inr (by rw [(h.row (p / 4)).2.2.1] at hp; exact hp)

theorem Keep.cur {n n' : Node} (k : Keep n n') (h : Cur env n) : Cur env n' := by
  refine ⟨fun i hi => by rw [(k.row i).2.1]; exact h.lim i hi, fun i hi => ?_, fun i => ?_, fun i => by rw [k.chg]; exact h.chg i, fun i j hj => ?_, fun p hp => ?_⟩
  · rw [(k.row i).2.1] at hi; rw [(k.row i).2.2.1]; exact h.free i hi
  · rw [(k.row i).2.2.1]; exact h.tob i
  · rw [(k.row i).2.2.1] at hj; rw [k.id, (k.row i).1]; exact h.id i j hj
  · rw [(k.row (p / 4)).2.2.1]
    rcases k.bits h.tob p hp with hp | hp
    · exact h.bits p hp
    · exact hp

theorem Keep.light {n n' : Node} (l : Light n n') : Keep n n' := .of (fun i => by rw [l.rows]; exact same_refl _) l.tx l.chg

theorem Keep.setRow (n : Node) (tp : Nat) (g : Row → Row) (h1 : ∀ r, SameRow r (g r)) : Keep n (n.setRow tp g) := by
  refine .of (fun i => ?_) rfl rfl
  unfold Node.setRow upd
  dsimp only
  split
  · next e => rw [e]; exact h1 _
  · exact same_refl _

theorem Keep.define (n : Node) (o : Nat) (d : ObjDef) : Keep n (n.define env o d).1 := by
  unfold Node.define
  split
  · exact .of (fun _ => same_refl _) rfl rfl
  · simp only
    split
    · exact .of (fun _ => same_refl _) rfl rfl
    · exact .of (fun _ => same_refl _) rfl rfl

theorem Keep.report (n : Node) (e : Err) : Keep n (n.report env e) := by
  unfold Node.report
  split
  · exact .of (fun _ => same_refl _) rfl rfl
  · exact .refl n

theorem Keep.addSlot (n : Node) (o tp : Nat) : Keep n (n.addSlot env o tp).1 := by
  unfold Node.addSlot
  split
  · exact .of (fun _ => same_refl _) rfl rfl
  · exact .refl n

theorem Keep.syncOn (n : Node) {tp : Nat} (h8 : tp < 8) : Keep n (n.syncOn tp) := by
  rw [syncOn_eq]
  refine ⟨fun i => ?_, rfl, rfl, fun h4 p hp => ?_⟩
  · unfold upd
    dsimp only
    split
    · next e => rw [e]; exact ⟨rfl, rfl, rfl, rfl⟩
    · exact same_refl _
  · rw [show (setBits n.tx.reg tp (n.rows tp).txObj).getLsbD p = _ from setBits_bit _ _ _ _ (h4 tp) h8] at hp
    rcases Bool.or_eq_true_iff.1 hp with hp | hp
    · exact .inl hp
    · have hp := of_decide_eq_true hp
      have h4 := h4 tp
      rw [show p / 4 = tp by omega]
      exact .inr (by omega)

theorem Keep.syncOff (n : Node) {tp : Nat} (h8 : tp < 8) : Keep n (n.syncOff env tp) := by
  obtain ⟨m, u, e⟩ := syncOff_eq env n tp
  rw [e]
  refine ⟨fun i => ?_, rfl, rfl, fun h4 p hp => ?_⟩
  · unfold upd
    dsimp only
    split
    · next e => rw [e]; exact ⟨rfl, rfl, rfl, rfl⟩
    · exact same_refl _
  · rw [show (clearBits n.tx.reg tp (n.rows tp).txObj).getLsbD p = _ from clearBits_bit _ _ _ _ (h4 tp) h8] at hp
    exact .inl (Bool.and_eq_true_iff.1 hp).1

theorem Keep.silentAwake (h8 : env.maxMod ≤ 8) (n : Node) (tp st : Nat) : Keep n (n.setSilentAwake env tp st).1 := by
  unfold Node.setSilentAwake
  have h1 : Keep n { n with silent := upd n.silent tp st, log := .silentCb tp (n.rows tp).nr st :: n.log } :=
    .of (fun _ => same_refl _) rfl rfl
  split
  · next ht =>
    simp only
    split
    · exact h1.trans (.syncOff _ (by omega))
    · split
      · exact h1.trans (.syncOn _ (by omega))
      · exact h1
  · exact .refl n

theorem Keep.then {n : Node} {r : Node × Err} {f : Node → Node × Err} (h : Keep n r.1) (hf : ∀ m, Keep m (f m).1) : Keep n (thenOk r f).1 := by
  unfold thenOk
  split
  · exact h.trans (hf _)
  · exact h

theorem Keep.forErr {f : Nat → Node → Node × Err} (hf : ∀ i m, Keep m (f i m).1) (is : List Nat) : ∀ n, Keep n (Node.forErr f is n).1 := by
  induction is with
  | nil => exact fun n => .refl n
  | cons i is ih => exact fun n => (hf i n).then fun m => ih m

theorem Keep.defineCtrl (n : Node) (idx nr : Nat) : Keep n (n.defineCtrl env idx nr).1 := by
  unfold Node.defineCtrl
  split
  · exact .refl n
  split
  · exact .refl n
  · next o _ => exact Keep.trans (b := { n with ctrlObj := upd n.ctrlObj idx o }) (.of (fun _ => same_refl _) rfl rfl) (.define ..)

theorem Keep.finish (h8 : env.maxMod ≤ 8) (n : Node) (tp idx nr : Nat) (nrs : List Nat) : Keep n (n.finish env tp idx nr nrs).1 := by
  unfold Node.finish
  simp only
  refine .then (.then (.then (.then (.defineCtrl n idx nr) ?_) ?_) ?_) ?_
  · exact fun m => .define ..
  · exact fun m => .define ..
  · intro m
    split
    · exact .define ..
    · exact .refl m
  · exact fun m => .silentAwake h8 ..

theorem Keep.setRx (n : Node) (tp nr : Nat) : Keep n (n.setRx env tp nr).1 := by
  unfold Node.setRx
  simp only
  refine (Keep.setRow n tp (fun r => { r with rxObjSync := r.rxObj }) (fun _ => ⟨rfl, rfl, rfl, rfl⟩)).trans (.forErr (fun i m => ?_) _ _)
  unfold Node.setRx1
  simp only
  have h1 := Keep.setRow m tp (fun r => { r with rxDlcSync := upd r.rxDlcSync i (r.rxDlc i) }) (fun _ => ⟨rfl, rfl, rfl, rfl⟩)
  generalize m.setRow tp (fun r => { r with rxDlcSync := upd r.rxDlcSync i (r.rxDlc i) }) = m1 at *
  cases m1.nextFree env with
  | none => exact h1
  | some o =>
    refine .then (h1.trans (Keep.trans (Keep.setRow m1 tp (fun r => { r with rxMsgObj := upd r.rxMsgObj i o }) (fun _ => ⟨rfl, rfl, rfl, rfl⟩))
      (.define ..))) fun _ => .addSlot ..

/-- one row gets a number, objects and the identifiers of that number -/
theorem Cur.fill {n n' : Node} (h : Cur env n) {tp : Nat} (h8 : tp < 8) (hm : tp < env.maxMod) (dlc : Nat → Nat) {nr k : Nat} (hk : k ≤ 4)
    (hr : ∀ i, i ≠ tp → SameRow (n.rows i) (n'.rows i)) (h1 : (n'.rows tp).nr = nr) (h2 : (n'.rows tp).txObj = k)
    (h3 : (n'.rows tp).typ = [] → k = 0) (h4 : (n.rows tp).txObj ≤ k) (hc : n'.chg = n.chg) (ht : n'.tx = Node.cnfgTx n.tx dlc tp nr k) : Cur env n' := by
  refine ⟨fun i hi => by rw [(hr i (by omega)).2.1]; exact h.lim i hi, fun i hi => ?_, fun i => ?_, fun i => by rw [hc]; exact h.chg i, fun i j hj => ?_, fun p hp => ?_⟩
  · by_cases e : i = tp
    · subst e; rw [h2]; exact h3 hi
    · rw [(hr i e).2.1] at hi; rw [(hr i e).2.2.1]; exact h.free i hi
  · by_cases e : i = tp
    · subst e; rw [h2]; exact hk
    · rw [(hr i e).2.2.1]; exact h.tob i
  · rw [ht, cnfgTx_id]
    by_cases e : i = tp
    · subst e
      rw [h2] at hj
      rw [if_pos ⟨rfl, hj⟩, h1]
    · rw [if_neg (fun c => e c.1), (hr i e).1]
      rw [(hr i e).2.2.1] at hj
      exact h.id i j hj
  · rw [ht, cnfgTx_reg, setBits_bit _ _ _ _ hk h8] at hp
    by_cases e : p / 4 = tp
    · rw [e, h2]
      rcases Bool.or_eq_true_iff.1 hp with hp | hp
      · have := h.bits p hp
        rw [e] at this; omega
      · have hp := of_decide_eq_true hp; omega
    · rw [(hr _ e).2.2.1]
      rcases Bool.or_eq_true_iff.1 hp with hp | hp
      · exact h.bits p hp
      · have hp := of_decide_eq_true hp; omega

theorem Cur.setModule (h8 : env.maxMod ≤ 8) {n : Node} (h : Cur env n) {tp : Nat} (ht : tp < env.maxMod) (hf : (n.rows tp).typ = []) {tpl : Row}
    (hty : tpl.typ ≠ []) (h4 : tpl.txObj ≤ 4) (nr : Nat) (rx tx : Nat → Nat) : Cur env (n.setModule env tp tpl nr rx tx).1 := by
  unfold Node.setModule
  simp only
  generalize effNr tp nr = nr
  have hrow : (n.fillRow tp tpl nr rx tx).rows tp = { tpl with nr := nr, rx := rx, tx := tx, txObjSync := tpl.txObj } := by
    simp [Node.fillRow, Node.setRow]
  have hoth : ∀ i, i ≠ tp → (n.fillRow tp tpl nr rx tx).rows i = n.rows i := by
    intro i hi
    simp only [Node.fillRow, Node.setRow]
    exact upd_other _ _ hi
  have hx := setTx_eq env (n.fillRow tp tpl nr rx tx) tp nr ht (by rw [hrow]; exact h4)
  have h1 : Cur env (Node.setTx env (n.fillRow tp tpl nr rx tx) tp nr).1 := by
    rw [hx]
    refine h.fill (tp := tp) (by omega) ht tpl.txDlc (nr := nr) (k := tpl.txObj) h4 (fun i hi => ?_) ?_ ?_ ?_ (by rw [h.free tp hf]; exact Nat.zero_le _) rfl ?_
    · dsimp only
      rw [upd_other _ _ hi, hoth i hi]; exact same_refl _
    · dsimp only
      rw [upd_same, hrow]
    · dsimp only
      rw [upd_same, hrow]
    · dsimp only
      rw [upd_same, hrow]; exact fun e => absurd e hty
    · dsimp only
      rw [hrow]; rfl
  refine Keep.cur ?_ h1
  generalize Node.setTx env (n.fillRow tp tpl nr rx tx) tp nr = r
  refine .then (.refl _) fun m => ?_
  refine .then (.setRx m tp nr) fun m => ?_
  have hk := Keep.finish h8 m tp m.nrMod nr ((List.range (tp + 1)).map fun i => (m.rows i).nr)
  generalize m.finish env tp m.nrMod nr ((List.range (tp + 1)).map fun i => (m.rows i).nr) = r at *
  exact hk.trans (.of (fun _ => same_refl _) rfl rfl)

theorem Cur.addModule (h8 : env.maxMod ≤ 8) {n : Node} (h : Cur env n) {tpl : Row} (hty : tpl.typ ≠ []) (h4 : tpl.txObj ≤ 4) (nr : Nat) (rx tx : Nat → Nat) :
    Cur env (n.addModule env tpl nr rx tx).1 := by
  unfold Node.addModule
  split
  · exact h
  · next i hi =>
    have hfree : (n.rows i).typ = [] := by simpa using List.find?_some hi
    split
    · exact (Keep.report ..).cur (h.setModule h8 (find_lt hi) hfree hty h4 _ rx tx)
    · exact (Keep.report ..).cur (h.setModule h8 (find_lt hi) hfree hty h4 _ rx tx)

/-- the relation is kept, the types stay -/
structure Mv (env : Env) (n n' : Node) : Prop where
  out : Cur env n → Cur env n' ∧ ∀ i, (n'.rows i).typ = (n.rows i).typ

theorem Keep.mv {n n' : Node} (h : Keep n n') : Mv env n n' := ⟨fun c => ⟨h.cur c, fun i => (h.row i).2.1⟩⟩

theorem Mv.trans {a b c : Node} (h : Mv env a b) (g : Mv env b c) : Mv env a c :=
  ⟨fun k => ⟨(g.out (h.out k).1).1, fun i => ((g.out (h.out k).1).2 i).trans ((h.out k).2 i)⟩⟩

theorem Mv.then {n : Node} {r : Node × Err} {f : Node → Node × Err} (h : Mv env n r.1) (hf : ∀ m, Keep m (f m).1) : Mv env n (thenOk r f).1 := by
  unfold thenOk
  split
  · exact h.trans (hf _).mv
  · exact h

theorem Mv.changeNr (h8 : env.maxMod ≤ 8) (n : Node) (typ : List Byte) (nr act : Nat) : Mv env n (n.changeNr env typ nr act).1 := by
  unfold Node.changeNr
  split
  · exact Keep.mv (Keep.of (n' := { n with ub := true }) (fun _ => same_refl _) rfl rfl)
  · next tp ht =>
    refine ⟨fun h => ?_⟩
    have htp := find_lt ht
    have hrow : (n.setRow tp fun r => { r with nr := nr }).rows tp = { n.rows tp with nr := nr } := by simp [Node.setRow]
    have hoth : ∀ i, i ≠ tp → (n.setRow tp fun r => { r with nr := nr }).rows i = n.rows i := by
      intro i hi
      simp only [Node.setRow]
      exact upd_other _ _ hi
    simp only
    rw [renumTx_eq env _ tp nr htp (by rw [hrow]; exact h.tob tp), thenOk_ok]
    have h1 : Cur env { (n.setRow tp fun r => { r with nr := nr }) with tx := Node.cnfgTx (n.setRow tp fun r => { r with nr := nr }).tx ((n.setRow tp fun r => { r with nr := nr }).rows tp).txDlc tp nr ((n.setRow tp fun r => { r with nr := nr }).rows tp).txObj } := by
      refine h.fill (tp := tp) (by omega) htp (n.rows tp).txDlc (nr := nr) (k := (n.rows tp).txObj) (h.tob tp) (fun i hi => ?_) ?_ ?_ ?_ (Nat.le_refl _) rfl ?_
      · dsimp only
        rw [hoth i hi]; exact same_refl _
      · dsimp only
        rw [hrow]
      · dsimp only
        rw [hrow]
      · dsimp only
        rw [hrow]; exact h.free tp
      · dsimp only
        rw [hrow]; rfl
    have h2 : ∀ i, ((n.setRow tp fun r => { r with nr := nr }).rows i).typ = (n.rows i).typ := by
      intro i
      by_cases e : i = tp
      · rw [e, hrow]
      · rw [hoth i e]
    have hk : ∀ m : Node, Keep m (thenOk (m.renumRx env tp nr) fun n => n.finish env tp tp nr ((List.range n.nrMod).map fun i => (n.rows i).nr)).1 := by
      intro m
      refine .then ?_ fun m => .finish h8 ..
      unfold Node.renumRx
      exact .forErr (fun i m => .define ..) _ _
    have h3 := (hk _).mv.out h1
    exact ⟨h3.1, fun i => (h3.2 i).trans (h2 i)⟩

theorem Mv.changeModuleNr (h8 : env.maxMod ≤ 8) (n : Node) (tp nr : Nat) : Mv env n (n.changeModuleNr env tp nr).1 := by
  unfold Node.changeModuleNr
  simp only
  split
  · exact .changeNr h8 ..
  · split
    · exact (Mv.changeNr h8 ..).then fun _ => .silentAwake h8 ..
    · exact (Mv.changeNr h8 ..).then fun _ => .silentAwake h8 ..
    · exact (Keep.refl n).mv

theorem Mv.changeType (n : Node) (tp : Nat) (typ : List Byte) : Mv env n (n.changeType env tp typ).1 := by
  refine ⟨fun h => ?_⟩
  unfold Node.changeType
  rw [h.chg tp]
  exact ⟨h, fun _ => rfl⟩

theorem Mv.cmd (h8 : env.maxMod ≤ 8) (n : Node) {o : Op} (ho : Cmd env o) : Mv env n (n.step env o).1 := by
  cases ho with
  | silentAwake h hs => exact (Keep.silentAwake h8 ..).mv
  | changeModuleNr h => exact .changeModuleNr h8 ..
  | changeType h => exact .changeType ..

theorem Cur.op (h8 : env.maxMod ≤ 8) {n : Node} (h : Cur env n) {N : Nat → Prop} {o : Op} (ho : OpO env N n o) : Cur env (n.step env o).1 := by
  cases o with
  | add tpl nr rx tx => exact h.addModule h8 ho.1 ho.2.1 nr rx tx
  | silentAwake tp st => exact (Keep.silentAwake h8 ..).cur h
  | silentAwakeBy typ nr st =>
    simp only [Node.step, Node.setSilentAwakeBy]
    split
    · exact (Keep.silentAwake h8 ..).cur h
    · exact h
  | setActive typ =>
    simp only [Node.step, Node.setActive]
    split
    · next ht => exact (Keep.syncOn n (by have := find_lt ht; omega)).cur h
    · exact h
  | setCritical typ =>
    simp only [Node.step, Node.setCritical]
    split
    · next ht => exact (Keep.syncOff n (by have := find_lt ht; omega)).cur h
    · exact h
  | changeModuleNr tp nr => exact ((Mv.changeModuleNr h8 n tp nr).out h).1
  | changeNr typ nr act => exact ((Mv.changeNr h8 n typ nr act).out h).1
  | changeTypeAdd typ tpl rx tx c => exact ho.elim
  | changeType tp typ => exact ((Mv.changeType n tp typ).out h).1
  | process =>
    simp only [Node.step]
    cases hp : n.sendProcessData env with
    | none => exact h
    | some m => exact (Keep.light (.sendProcess hp)).cur h

theorem Mv.init (n : Node) (he : ∀ i, (n.rows i).typ = []) : Mv env n (n.init env).1 := by
  unfold Node.init
  simp only
  have h1 : Keep n { n with
    nrMod := 0
    rows := fun i => if i < env.maxMod then { n.rows i with typ := [] } else n.rows i
    hw := { n.hw with
      used := fun i => if i < env.nObj then false else n.hw.used i
      defs := fun i => if i < env.nObj then none else n.hw.defs i } } := by
    refine .of (fun i => ?_) rfl rfl
    dsimp only
    split
    · exact ⟨rfl, (he i).symm, rfl, rfl⟩
    · exact same_refl _
  refine Keep.mv (.then (.then (.then (.then (h1.trans (.define ..)) ?_) ?_) ?_) ?_)
  · exact fun m => .define ..
  · intro m
    split
    · exact .define ..
    · exact .refl m
  · exact fun m => .define ..
  · exact fun m => .define ..

end Node

namespace Stack
open Node

/-- `lcsa_init` is called only before the first module is registered -/
def InitFirst (env : AEnv) : Stack → List SIn → Prop
  | _, [] => True
  | s, i :: is => ((∃ b, i = .init b) → ∀ k, (s.slv.node.rows k).typ = []) ∧ ∀ s', step env s i = some s' → InitFirst env s' is

theorem cur_step {env : AEnv} {N : Nat → Prop} (h8 : env.maxMod ≤ 8) {s s' : Stack} {i : SIn} (h : Cur env.toEnv s.slv.node) (hi : SInO env N s i)
    (hf : (∃ b, i = .init b) → ∀ k, (s.slv.node.rows k).typ = []) (e : step env s i = some s') : Cur env.toEnv s'.slv.node := by
  by_cases hb : ∃ b, i = .init b
  · have key : Cur env.toEnv s'.nodeOf ∧ ∀ k, (s'.nodeOf.rows k).typ = [] := by
      refine (step_trace e).keeps (I := fun n => Cur env.toEnv n ∧ ∀ k, (n.rows k).typ = []) ?_ ⟨h, hf hb⟩
      intro a b g ⟨c, t⟩
      have mv : ∀ {b : Node}, Mv env.toEnv a b → Cur env.toEnv b ∧ ∀ k, (b.rows k).typ = [] := fun m => ⟨(m.out c).1, fun k => ((m.out c).2 k).trans (t k)⟩
      obtain ⟨b0, rfl⟩ := hb
      cases g with
      | plain p => exact mv (Keep.light p.light).mv
      | recv hi hm hs => exact mv (Keep.light (.callRx ..)).mv
      | send hp => exact mv (Keep.light (.sendProcess hp)).mv
      | cmd o ho => exact mv (.cmd h8 _ ho)
      | table o hi => obtain ⟨b, hi⟩ := hi; cases hi
      | init hi => exact mv (.init a t)
      | tunnel nr => exact mv (Keep.define ..).mv
    exact key.1
  · refine (step_trace e).keeps (I := Cur env.toEnv) ?_ h
    intro a b g c
    cases g with
    | plain p => exact (Keep.light p.light).cur c
    | recv hi hm hs => exact (Keep.light (.callRx ..)).cur c
    | send hp => exact (Keep.light (.sendProcess hp)).cur c
    | cmd o ho => exact ((Mv.cmd h8 _ ho).out c).1
    | table o hj =>
      cases i with
      | api k =>
        obtain ⟨e1, e2, -⟩ := hj
        subst e2
        rw [e1] at c ⊢
        exact c.op h8 (N := N) hi
      | rx now obj dlc id ext data => cases hj.2
      | init b => exact absurd ⟨b, rfl⟩ hb
      | _ => exact hj.elim
    | init hj =>
      cases i with
      | api k =>
        obtain ⟨e1, e2, e3⟩ := hj
        subst e2
        cases e3
      | rx now obj dlc id ext data => cases hj.2
      | init b => exact absurd ⟨b, rfl⟩ hb
      | _ => exact hj.elim
    | tunnel nr => exact (Keep.define ..).cur c

theorem cur_run {env : AEnv} {N : Nat → Prop} (h8 : env.maxMod ≤ 8) (is : List SIn) : ∀ {s s' : Stack}, Cur env.toEnv s.slv.node → UsesOnly env N s is →
    InitFirst env s is → run env s is = some s' → Cur env.toEnv s'.slv.node := by
  induction is with
  | nil => intro s s' h _ _ e; injection e with e; rw [← e]; exact h
  | cons i is ih =>
    intro s s' h hu hf e
    simp only [Stack.run, Option.bind_eq_some_iff] at e
    obtain ⟨t, ht, e⟩ := e
    exact ih (cur_step h8 h hu.1 hf.1 ht) (hu.2 t ht) (hf.2 t ht) e

theorem cur_boot {env : AEnv} (mem : Nat → List Byte) (info : XInfo) : Cur env.toEnv (boot mem info).slv.node := by
  refine ⟨fun _ _ => rfl, fun _ _ => rfl, fun _ => Nat.zero_le _, fun _ => rfl, fun i j hj => (by cases hj), fun p hp => ?_⟩
  have hp : (0#32 : BitVec 32).getLsbD p = true := hp
  simp at hp

/-- A state in which nothing refers to other numbers than `M` satisfies the invariant for `M`; its past does not matter. -/
theorem SO.settle {env : AEnv} {N M : Nat → Prop} {B : List Ev} {s : Stack} (h : SO B env N s) (hc : Cur env.toEnv s.slv.node) (hM : Numbers M)
    (hr : ∀ i < env.maxMod, N (s.slv.node.rows i).nr → M (s.slv.node.rows i).nr) (hx : s.x.comp.nr = 0 ∨ M s.x.comp.nr)
    (ho : s.tnl.state ≠ .free → M s.tnl.own) (hq : ∀ f ∈ pendingOf s.q, FromSlave M f.id) (hi : s.info.d.mode = 3 → M s.info.d.comp.nr) :
    SO s.slv.node.log env M s := by
  have hs : ∀ i j, j < (s.slv.node.rows i).txObj → SyncId M (s.slv.node.tx.id i j) := by
    intro i j hj
    have ht : (s.slv.node.rows i).typ ≠ [] := by
      intro e; rw [hc.free i e] at hj; cases hj
    have him : i < env.maxMod := Nat.lt_of_not_le fun c => ht (hc.lim i c)
    have hm := hr i him ((h.node.1.nr i him).resolve_right fun k => ht k.1)
    have hk := hM _ hm
    have h4 := hc.tob i
    refine ⟨_, hm, j, by omega, ?_⟩
    rw [hc.id i j hj]
    unfold syncTxId idOf; omega
  refine ⟨⟨⟨fun i hi => ?_, h.node.1.pre, h.node.1.reg, h.node.1.lim, h.node.1.chg, h.node.1.tob, h.node.1.rob, fun i _ j hj => hs i j hj,
    fun p hp => hs _ _ (hc.bits p hp), h.node.1.defs, hM⟩, [], rfl, fun f ok hm => by cases hm⟩, hx, ho, h.lock, h.ring, hq, hi⟩
  rcases h.node.1.nr i hi with k | k
  · exact .inl (hr i hi k)
  · exact .inr k

end Stack
end LiCan
