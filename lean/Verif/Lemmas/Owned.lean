import Verif.Lemmas.SlaveGood
import Verif.Lemmas.SlaveEff
import Verif.Lemmas.Legal
import Verif.Spec.Network
/-! # Every frame of the module table and the slave belongs to a number of the node -/
namespace LiCan
open Spec
namespace Node

/-- process data identifiers of the numbers `N` -/
def SyncId (N : Nat → Prop) (id : Nat) : Prop := ∃ n, N n ∧ ∃ j < 4, id = 0x400 + 4 * (n - 1) + j

/-- a message object lets messages to slaves through only -/
def DefO (d : ObjDef) : Prop := d.svc ≠ .tx → ∀ id < 2048, hwAccepts (BitVec.ofNat 16 d.id) d.mask (BitVec.ofNat 16 id) = true → ToSlave id

/-- The numbers of the node, rows known to be registered, rows known to be beyond the counted ones. -/
structure Own where
  N : Nat → Prop
  R : Nat → Prop := fun _ => False
  T : Nat → Prop := fun _ => False

/-- the table part -/
structure StatO (env : Env) (w : Own) (n : Node) : Prop where
  nr : ∀ i < env.maxMod, w.N (n.rows i).nr ∨ ((n.rows i).typ = [] ∧ 125 ≤ (n.rows i).nr ∧ (n.rows i).nr ≤ 127)
  pre : ∀ i < n.nrMod, (n.rows i).typ ≠ []
  reg : ∀ i, w.R i → (n.rows i).typ ≠ []
  lim : ∀ i, w.T i → n.nrMod ≤ i
  chg : ∀ i, n.chg i = none
  tob : ∀ i, (n.rows i).txObj ≤ 4
  rob : ∀ i, (n.rows i).rxObj ≤ 4
  cfg : ∀ i < env.maxMod, ∀ j < (n.rows i).txObj, SyncId w.N (n.tx.id i j)
  bits : ∀ p, n.tx.reg.getLsbD p = true → SyncId w.N (n.tx.id (p / 4) (p % 4))
  defs : ∀ o d, n.hw.defs o = some d → DefO d
  num : Numbers w.N

/-- the frames handed over since the log was `B` -/
def LogO (B : List Ev) (N : Nat → Prop) (n : Node) : Prop := ∃ new, n.log = new ++ B ∧ ∀ f ok, Ev.frame f ok ∈ new → FromSlave N f.id

def NodeO (B : List Ev) (env : Env) (w : Own) (n : Node) : Prop := StatO env w n ∧ LogO B w.N n

variable {env : Env} {w : Own} {B : List Ev}

theorem StatO.light {n n' : Node} (h : StatO env w n) (l : Light n n') : StatO env w n' :=
  ⟨by rw [l.rows]; exact h.nr, by rw [l.rows, l.nrMod]; exact h.pre, by rw [l.rows]; exact h.reg, by rw [l.nrMod]; exact h.lim,
   by rw [l.chg]; exact h.chg, by rw [l.rows]; exact h.tob, by rw [l.rows]; exact h.rob, by rw [l.rows, l.tx]; exact h.cfg, by rw [l.tx]; exact h.bits,
   by rw [l.hw]; exact h.defs, h.num⟩

/-- the rows agree in what matters -/
def SameRow (r r' : Row) : Prop := r'.nr = r.nr ∧ r'.typ = r.typ ∧ r'.txObj = r.txObj ∧ r'.rxObj = r.rxObj

theorem NodeO.congr {n n' : Node} (h : NodeO B env w n) (h1 : ∀ i, SameRow (n.rows i) (n'.rows i)) (h2 : n'.nrMod = n.nrMod)
    (h3 : n'.chg = n.chg) (h4 : n'.tx.id = n.tx.id) (h5 : n'.tx.reg = n.tx.reg) (h6 : ∀ o d, n'.hw.defs o = some d → DefO d)
    (h7 : n'.log = n.log) : NodeO B env w n' := by
  refine ⟨⟨fun i hi => ?_, fun i hi => ?_, fun i hi => ?_, fun i hi => ?_, ?_, fun i => ?_, fun i => ?_, fun i hi j hj => ?_, ?_, h6, h.1.num⟩, ?_⟩
  · rw [(h1 i).1, (h1 i).2.1]; exact h.1.nr i hi
  · rw [h2] at hi; rw [(h1 i).2.1]; exact h.1.pre i hi
  · rw [(h1 i).2.1]; exact h.1.reg i hi
  · rw [h2]; exact h.1.lim i hi
  · rw [h3]; exact h.1.chg
  · rw [(h1 i).2.2.1]; exact h.1.tob i
  · rw [(h1 i).2.2.2]; exact h.1.rob i
  · rw [h4]; rw [(h1 i).2.2.1] at hj; exact h.1.cfg i hi j hj
  · rw [h4, h5]; exact h.1.bits
  · unfold LogO; rw [h7]; exact h.2

/-- more or less is known about the rows -/
theorem NodeO.know {N R T R' T' : Nat → Prop} {n : Node} (h : NodeO B env ⟨N, R, T⟩ n) (h1 : ∀ i, R' i → (n.rows i).typ ≠ [])
    (h2 : ∀ i, T' i → n.nrMod ≤ i) : NodeO B env ⟨N, R', T'⟩ n :=
  ⟨⟨h.1.nr, h.1.pre, h1, h2, h.1.chg, h.1.tob, h.1.rob, h.1.cfg, h.1.bits, h.1.defs, h.1.num⟩, h.2⟩

theorem LogO.cons {N : Nat → Prop} {n n' : Node} {e : Ev} (h : LogO B N n) (hl : n'.log = e :: n.log) (he : ∀ f ok, e = .frame f ok → FromSlave N f.id) : LogO B N n' := by
  obtain ⟨new, h1, h2⟩ := h
  refine ⟨e :: new, by rw [hl, h1]; rfl, fun f ok hm => ?_⟩
  rcases List.mem_cons.1 hm with hm | hm
  · exact he f ok hm.symm
  · exact h2 f ok hm

theorem NodeO.log1 {n : Node} (h : NodeO B env w n) (e : Ev) (he : ∀ f ok, e = .frame f ok → FromSlave w.N f.id) :
    NodeO B env w { n with log := e :: n.log } :=
  ⟨⟨h.1.nr, h.1.pre, h.1.reg, h.1.lim, h.1.chg, h.1.tob, h.1.rob, h.1.cfg, h.1.bits, h.1.defs, h.1.num⟩, h.2.cons rfl he⟩

theorem NodeO.setRow {n : Node} (h : NodeO B env w n) (tp : Nat) (g : Row → Row) (h1 : ∀ r, SameRow r (g r)) :
    NodeO B env w (n.setRow tp g) := by
  refine h.congr (fun i => ?_) rfl rfl rfl rfl h.1.defs rfl
  unfold Node.setRow upd
  dsimp only
  split
  · next e => rw [e]; exact h1 _
  · exact ⟨rfl, rfl, rfl, rfl⟩

theorem same_refl (r : Row) : SameRow r r := ⟨rfl, rfl, rfl, rfl⟩

theorem NodeO.define {n : Node} (h : NodeO B env w n) (o : Nat) (d : ObjDef) (hd : DefO d) : NodeO B env w (n.define env o d).1 := by
  unfold Node.define
  split
  · exact h.congr (fun _ => same_refl _) rfl rfl rfl rfl h.1.defs rfl
  · simp only
    split
    · refine h.congr (fun _ => same_refl _) rfl rfl rfl rfl ?_ rfl
      intro k e hk
      simp only [upd] at hk
      split at hk
      · injection hk with hk; rw [← hk]; exact hd
      · exact h.1.defs k e hk
    · exact h.congr (fun _ => same_refl _) rfl rfl rfl rfl h.1.defs rfl

theorem NodeO.report {n : Node} (h : NodeO B env w n) (e : Err) : NodeO B env w (n.report env e) := by
  unfold Node.report
  split
  · exact h.congr (fun _ => same_refl _) rfl rfl rfl rfl h.1.defs rfl
  · exact h

theorem NodeO.addSlot {n : Node} (h : NodeO B env w n) (o tp : Nat) : NodeO B env w (n.addSlot env o tp).1 := by
  unfold Node.addSlot
  split
  · exact h.congr (fun _ => same_refl _) rfl rfl rfl rfl h.1.defs rfl
  · exact h

theorem NodeO.rowsTx {n n' : Node} (h : NodeO B env w n) (h1 : ∀ i, SameRow (n.rows i) (n'.rows i)) (h2 : n'.nrMod = n.nrMod)
    (h3 : n'.chg = n.chg) (h4 : n'.tx.id = n.tx.id) (h6 : n'.hw = n.hw)
    (h5 : ∀ p, n'.tx.reg.getLsbD p = true → SyncId w.N (n.tx.id (p / 4) (p % 4)))
    (h7 : n'.log = n.log) : NodeO B env w n' := by
  refine ⟨⟨fun i hi => ?_, fun i hi => ?_, fun i hi => ?_, fun i hi => ?_, ?_, fun i => ?_, fun i => ?_, fun i hi j hj => ?_, ?_, ?_, h.1.num⟩, ?_⟩
  · rw [(h1 i).1, (h1 i).2.1]; exact h.1.nr i hi
  · rw [h2] at hi; rw [(h1 i).2.1]; exact h.1.pre i hi
  · rw [(h1 i).2.1]; exact h.1.reg i hi
  · rw [h2]; exact h.1.lim i hi
  · rw [h3]; exact h.1.chg
  · rw [(h1 i).2.2.1]; exact h.1.tob i
  · rw [(h1 i).2.2.2]; exact h.1.rob i
  · rw [h4]; rw [(h1 i).2.2.1] at hj; exact h.1.cfg i hi j hj
  · rw [h4]; exact h5
  · rw [h6]; exact h.1.defs
  · unfold LogO; rw [h7]; exact h.2

theorem NodeO.syncOn (h8 : env.maxMod ≤ 8) {n : Node} (h : NodeO B env w n) {tp : Nat} (ht : tp < env.maxMod) : NodeO B env w (n.syncOn tp) := by
  rw [syncOn_eq]
  refine h.rowsTx (fun i => ?_) rfl rfl rfl rfl ?_ rfl
  · unfold upd
    dsimp only
    split
    · next e => rw [e]; exact ⟨rfl, rfl, rfl, rfl⟩
    · exact same_refl _
  · intro p hp
    have h4 := h.1.tob tp
    rw [show (setBits n.tx.reg tp (n.rows tp).txObj).getLsbD p = _ from setBits_bit _ _ _ _ h4 (by omega)] at hp
    rcases Bool.or_eq_true_iff.1 hp with hp | hp
    · exact h.1.bits p hp
    · have hp := of_decide_eq_true hp
      have := h.1.cfg tp ht (p % 4) (by omega)
      rwa [show p / 4 = tp by omega]

theorem NodeO.syncOff {n : Node} (h : NodeO B env w n) (tp : Nat) (h8 : tp < 8) : NodeO B env w (n.syncOff env tp) := by
  obtain ⟨m, u, e⟩ := syncOff_eq env n tp
  rw [e]
  refine h.rowsTx (fun i => ?_) rfl rfl rfl rfl ?_ rfl
  · unfold upd
    dsimp only
    split
    · next e => rw [e]; exact ⟨rfl, rfl, rfl, rfl⟩
    · exact same_refl _
  · intro p hp
    rw [show (clearBits n.tx.reg tp (n.rows tp).txObj).getLsbD p = _ from clearBits_bit _ _ _ _ (h.1.tob tp) h8] at hp
    exact h.1.bits p (Bool.and_eq_true_iff.1 hp).1

theorem NodeO.silentAwake (h8 : env.maxMod ≤ 8) {n : Node} (h : NodeO B env w n) (tp st : Nat) : NodeO B env w (n.setSilentAwake env tp st).1 := by
  unfold Node.setSilentAwake
  have h1 : NodeO B env w { n with silent := upd n.silent tp st, log := .silentCb tp (n.rows tp).nr st :: n.log } :=
    ⟨⟨h.1.nr, h.1.pre, h.1.reg, h.1.lim, h.1.chg, h.1.tob, h.1.rob, h.1.cfg, h.1.bits, h.1.defs, h.1.num⟩, h.2.cons rfl (fun f ok e => by cases e)⟩
  split
  · next ht =>
    simp only
    split
    · exact h1.syncOff tp (by omega)
    · split
      · exact h1.syncOn h8 ht
      · exact h1
  · exact h

theorem NodeO.then {r : Node × Err} {f : Node → Node × Err} (h : NodeO B env w r.1) (hf : ∀ n, NodeO B env w n → NodeO B env w (f n).1) :
    NodeO B env w (thenOk r f).1 := by
  unfold thenOk
  split
  · exact hf _ h
  · exact h

theorem NodeO.forErr {f : Nat → Node → Node × Err} (is : List Nat) (hf : ∀ i ∈ is, ∀ n, NodeO B env w n → NodeO B env w (f i n).1) :
    ∀ {n : Node}, NodeO B env w n → NodeO B env w (Node.forErr f is n).1 := by
  induction is with
  | nil => exact fun h => h
  | cons i is ih =>
    exact fun h => (hf i (List.mem_cons_self ..) _ h).then fun _ => ih (fun j hj => hf j (List.mem_cons_of_mem _ hj))

/-- transmit objects `0..k-1` of a row get identifiers of `nr` -/
theorem NodeO.cnfgTx {n : Node} (h : NodeO B env w n) (h8 : env.maxMod ≤ 8) {tp nr : Nat} (hn : w.N nr) (hw : NrOk nr) (ht : tp < env.maxMod)
    (dlc : Nat → Nat) (k : Nat) (hk : k ≤ 4) : NodeO B env w { n with tx := Node.cnfgTx n.tx dlc tp nr k } := by
  have hs : ∀ j < 4, SyncId w.N (syncTxId nr j) := by
    intro j hj
    refine ⟨nr, hn, j, hj, ?_⟩
    unfold syncTxId idOf; obtain ⟨a, b⟩ := hw; omega
  refine ⟨⟨h.1.nr, h.1.pre, h.1.reg, h.1.lim, h.1.chg, h.1.tob, h.1.rob, ?_, ?_, h.1.defs, h.1.num⟩, h.2⟩
  · intro i hi j hj
    show SyncId w.N ((Node.cnfgTx n.tx dlc tp nr k).id i j)
    rw [cnfgTx_id]
    split
    · exact hs j (by have := h.1.tob i; exact Nat.lt_of_lt_of_le hj this)
    · exact h.1.cfg i hi j hj
  · intro p hp
    replace hp : (Node.cnfgTx n.tx dlc tp nr k).reg.getLsbD p = true := hp
    rw [cnfgTx_reg, setBits_bit _ _ _ _ hk (by omega)] at hp
    show SyncId w.N ((Node.cnfgTx n.tx dlc tp nr k).id (p / 4) (p % 4))
    rw [cnfgTx_id]
    split
    · exact hs _ (Nat.mod_lt _ (by decide))
    · next hc =>
      rcases Bool.or_eq_true_iff.1 hp with hp | hp
      · exact h.1.bits p hp
      · have hp := of_decide_eq_true hp
        exact absurd ⟨by omega, by omega⟩ hc

/-! ## Acceptance filters -/

theorem and_mask (x : Nat) (hx : x < 0x800) : (BitVec.ofNat 16 x &&& 0x7FF#16) = BitVec.ofNat 16 x := by
  apply BitVec.eq_of_toNat_eq
  simp only [BitVec.toNat_and, BitVec.toNat_ofNat]
  rw [show (2047 % 2 ^ 16) = 2 ^ 11 - 1 from rfl, Nat.and_two_pow_sub_one_eq_mod]
  omega

theorem defO_full {id dlc : Nat} {svc : Svc} (h : id < 2048) (ht : ToSlave id) : DefO ⟨id, 0x7FF#16, dlc, svc⟩ := by
  intro _ y hy ha
  simp only [hwAccepts, beq_iff_eq] at ha
  rw [and_mask y hy, and_mask id h] at ha
  have := congrArg BitVec.toNat ha
  simp only [BitVec.toNat_ofNat] at this
  have : y = id := by omega
  rw [this]; exact ht

theorem defO_tx (id : Nat) (m : BitVec 16) (dlc : Nat) : DefO ⟨id, m, dlc, .tx⟩ := fun h => absurd rfl h

theorem low_bits (nrs : List Nat) (svc : Nat) (hs : svc = 2 ∨ svc = 0x602) (y : Nat) (hy : y < 2048)
    (ha : hwAccepts (BitVec.ofNat 16 svc) (acceptMask nrs) (BitVec.ofNat 16 y) = true) : y % 4 = 2 ∧ (y < 0x200 ∧ svc = 2 ∨ 0x600 ≤ y ∧ svc = 0x602) := by
  simp only [hwAccepts, beq_iff_eq] at ha
  have h1 : (BitVec.ofNat 16 y &&& 0x603#16) = BitVec.ofNat 16 svc &&& 0x603#16 := by
    have e : (0x603#16 : BitVec 16) = acceptMask nrs &&& 0x603#16 := by
      unfold acceptMask
      rw [BitVec.and_comm]
      ext i hi
      simp only [BitVec.getElem_and, BitVec.getElem_or]
      cases (0x603#16 : BitVec 16)[i] <;> simp
    rw [e, ← BitVec.and_assoc, ← BitVec.and_assoc, ha]
  have h2 := congrArg BitVec.toNat h1
  simp only [BitVec.toNat_and, BitVec.toNat_ofNat] at h2
  have h3 : y % 2 ^ 16 &&& 0x603 = (svc % 2 ^ 16) &&& 0x603 := h2
  rw [Nat.mod_eq_of_lt (by omega)] at h3
  have h4 : ∀ y : Fin 2048, (y.val &&& 0x603 = 2 → y.val % 4 = 2 ∧ y.val < 0x200) ∧ (y.val &&& 0x603 = 0x602 → y.val % 4 = 2 ∧ 0x600 ≤ y.val) := by
    decide +kernel
  rcases hs with e | e <;> subst e
  · have := (h4 ⟨y, hy⟩).1 h3
    exact ⟨this.1, .inl ⟨this.2, rfl⟩⟩
  · have := (h4 ⟨y, hy⟩).2 h3
    exact ⟨this.1, .inr ⟨this.2, rfl⟩⟩

theorem defO_sys (nrs : List Nat) (dlc : Nat) (svc : Svc) : DefO ⟨0x002, acceptMask nrs, dlc, svc⟩ := by
  intro _ y hy ha
  have := low_bits nrs 2 (.inl rfl) y hy ha
  exact .inr ⟨y / 4 + 1, by omega, .inl (by omega)⟩

theorem defO_data (nrs : List Nat) (dlc : Nat) (svc : Svc) : DefO ⟨0x602, acceptMask nrs, dlc, svc⟩ := by
  intro _ y hy ha
  have := low_bits nrs 0x602 (.inr rfl) y hy ha
  exact .inr ⟨(y - 0x602) / 4 + 1, by omega, .inr (.inr (.inr (by omega)))⟩

theorem defO_syncRx {nr j : Nat} (hn : NrOk nr) (hj : j < 4) (dlc : Nat) (svc : Svc) : DefO ⟨syncRxId nr j, 0x7FF#16, dlc, svc⟩ := by
  obtain ⟨a, b⟩ := hn
  have e : syncRxId nr j = 0x200 + 4 * (nr - 1) + j := by unfold syncRxId idOf; omega
  exact defO_full (by rw [e]; omega) (.inr ⟨nr, ⟨a, b⟩, .inr (.inl ⟨j, hj, e⟩)⟩)

theorem defO_ctrl {nr : Nat} (hn : NrOk nr) (dlc : Nat) (svc : Svc) : DefO ⟨asyncCtrlRxId nr, 0x7FF#16, dlc, svc⟩ := by
  obtain ⟨a, b⟩ := hn
  have e : asyncCtrlRxId nr = 0x600 + 4 * (nr - 1) := by unfold asyncCtrlRxId idOf; omega
  exact defO_full (by rw [e]; omega) (.inr ⟨nr, ⟨a, b⟩, .inr (.inr (.inl e))⟩)

theorem defO_tnl {nr : Nat} (hn : NrOk nr) (dlc : Nat) (svc : Svc) : DefO ⟨idOf 0x602 nr 0, 0x7FF#16, dlc, svc⟩ := by
  obtain ⟨a, b⟩ := hn
  have e : idOf 0x602 nr 0 = 0x602 + 4 * (nr - 1) := by unfold idOf; omega
  exact defO_full (by rw [e]; omega) (.inr ⟨nr, ⟨a, b⟩, .inr (.inr (.inr e))⟩)

/-! ## Registration and number change -/

theorem NodeO.defineCtrl {n : Node} (h : NodeO B env w n) (idx : Nat) {nr : Nat} (hn : NrOk nr) : NodeO B env w (n.defineCtrl env idx nr).1 := by
  unfold Node.defineCtrl
  split
  · exact h
  split
  · exact h
  · refine NodeO.define ?_ _ _ (defO_ctrl hn _ _)
    exact h.congr (fun _ => same_refl _) rfl rfl rfl rfl h.1.defs rfl

theorem NodeO.finish (h8 : env.maxMod ≤ 8) {n : Node} (h : NodeO B env w n) (tp idx : Nat) {nr : Nat} (hn : NrOk nr) (nrs : List Nat) :
    NodeO B env w (n.finish env tp idx nr nrs).1 := by
  unfold Node.finish
  simp only
  refine .then (.then (.then (.then (h.defineCtrl idx hn) ?_) ?_) ?_) ?_
  · exact fun _ h => h.define _ _ (defO_data _ _ _)
  · exact fun _ h => h.define _ _ (defO_sys _ _ _)
  · intro n h
    split
    · exact h.define _ _ (defO_sys _ _ _)
    · exact h
  · exact fun _ h => h.silentAwake h8 _ _

theorem NodeO.setRx1 {n : Node} (h : NodeO B env w n) (tp : Nat) {nr i : Nat} (hn : NrOk nr) (hi : i < 4) : NodeO B env w (setRx1 env tp nr i n).1 := by
  unfold Node.setRx1
  simp only
  have h1 := h.setRow tp (fun r => { r with rxDlcSync := upd r.rxDlcSync i (r.rxDlc i) }) (fun _ => ⟨rfl, rfl, rfl, rfl⟩)
  generalize n.setRow tp (fun r => { r with rxDlcSync := upd r.rxDlcSync i (r.rxDlc i) }) = n1 at *
  cases n1.nextFree env with
  | none => exact h1
  | some o =>
    refine .then (.define ?_ _ _ (defO_syncRx hn hi _ _)) fun _ h => h.addSlot _ _
    exact h1.setRow tp (fun r => { r with rxMsgObj := upd r.rxMsgObj i o }) (fun _ => ⟨rfl, rfl, rfl, rfl⟩)

theorem NodeO.setModule {N : Nat → Prop} (h8 : env.maxMod ≤ 8) {n : Node} (h : NodeO B env ⟨N, fun _ => False, fun _ => False⟩ n) {tp : Nat} {tpl : Row} {nr : Nat}
    (rx tx : Nat → Nat) (ht : tp < env.maxMod) (hn : N (effNr tp nr)) (hw : NrOk (effNr tp nr)) (h1 : tpl.typ ≠ []) (h2 : tpl.txObj ≤ 4) (h3 : tpl.rxObj ≤ 4)
    (hb : ∀ j < tp, (n.rows j).typ ≠ []) (hc : n.nrMod ≤ tp) :
    NodeO B env ⟨N, fun _ => False, fun _ => False⟩ (n.setModule env tp tpl nr rx tx).1 := by
  unfold Node.setModule
  simp only
  generalize effNr tp nr = nr at *
  have hrow : (n.fillRow tp tpl nr rx tx).rows tp = { tpl with nr := nr, rx := rx, tx := tx, txObjSync := tpl.txObj } := by
    simp [Node.fillRow, Node.setRow]
  have hoth : ∀ i, i ≠ tp → (n.fillRow tp tpl nr rx tx).rows i = n.rows i := by
    intro i hi
    simp only [Node.fillRow, Node.setRow]
    exact upd_other _ _ hi
  have hx := setTx_eq env (n.fillRow tp tpl nr rx tx) tp nr ht (by rw [hrow]; exact h2)
  have hs : NodeO B env ⟨N, fun i => i ≤ tp, fun i => i = tp⟩ (n.fillRow tp tpl nr rx tx |>.setTx env tp nr).1 := by
    rw [hx]
    have hid : ∀ i j, (Node.cnfgTx n.tx tpl.txDlc tp nr tpl.txObj).id i j = if i = tp ∧ j < tpl.txObj then syncTxId nr j else n.tx.id i j :=
      fun i j => cnfgTx_id ..
    have hsy : ∀ j < 4, SyncId N (syncTxId nr j) := by
      intro j hj
      refine ⟨nr, hn, j, hj, ?_⟩
      unfold syncTxId idOf; obtain ⟨a, b⟩ := hw; omega
    rw [hrow]
    have hr : ∀ i, SameRow ((n.fillRow tp tpl nr rx tx).rows i) (upd (n.fillRow tp tpl nr rx tx).rows tp
        { tpl with nr := nr, rx := rx, tx := tx, txObjSync := tpl.txObj, txDlcSync := first tpl.txObj tpl.txDlc tpl.txDlcSync } i) := by
      intro i
      unfold upd
      split
      · next e => rw [e, hrow]; exact ⟨rfl, rfl, rfl, rfl⟩
      · exact same_refl _
    have hnr : ∀ i, ((n.fillRow tp tpl nr rx tx).rows i).nr = if i = tp then nr else (n.rows i).nr := by
      intro i; split
      · next e => rw [e, hrow]
      · next e => rw [hoth i e]
    have hty : ∀ i, ((n.fillRow tp tpl nr rx tx).rows i).typ = if i = tp then tpl.typ else (n.rows i).typ := by
      intro i; split
      · next e => rw [e, hrow]
      · next e => rw [hoth i e]
    have hto : ∀ i, ((n.fillRow tp tpl nr rx tx).rows i).txObj = if i = tp then tpl.txObj else (n.rows i).txObj := by
      intro i; split
      · next e => rw [e, hrow]
      · next e => rw [hoth i e]
    have hro : ∀ i, ((n.fillRow tp tpl nr rx tx).rows i).rxObj = if i = tp then tpl.rxObj else (n.rows i).rxObj := by
      intro i; split
      · next e => rw [e, hrow]
      · next e => rw [hoth i e]
    have htn : ∀ i, i ≤ tp → ((n.fillRow tp tpl nr rx tx).rows i).typ ≠ [] := by
      intro i hi
      rw [hty]; split
      · exact h1
      · exact hb i (by omega)
    refine ⟨⟨fun i hi => ?_, fun i hi => ?_, fun i hi => ?_, fun i hi => ?_, h.1.chg, fun i => ?_, fun i => ?_, fun i hi j hj => ?_, fun p hp => ?_, h.1.defs, h.1.num⟩, h.2⟩
    · rw [(hr i).1, (hr i).2.1, hnr, hty]
      split
      · exact .inl hn
      · exact h.1.nr i hi
    · rw [(hr i).2.1]
      exact htn i (by have : i < n.nrMod := hi; omega)
    · rw [(hr i).2.1]
      exact htn i hi
    · replace hi : i = tp := hi
      subst hi; exact hc
    · rw [(hr i).2.2.1, hto]
      split
      · exact h2
      · exact h.1.tob i
    · rw [(hr i).2.2.2, hro]
      split
      · exact h3
      · exact h.1.rob i
    · rw [(hr i).2.2.1, hto] at hj
      refine Eq.mpr (congrArg (SyncId N) (hid i j)) ?_
      split
      · exact hsy j (by omega)
      · next hc' =>
        split at hj
        · next e => exact absurd ⟨e, hj⟩ hc'
        · exact h.1.cfg i hi j hj
    · replace hp : (Node.cnfgTx n.tx tpl.txDlc tp nr tpl.txObj).reg.getLsbD p = true := hp
      rw [cnfgTx_reg, setBits_bit _ _ _ _ h2 (by omega)] at hp
      refine Eq.mpr (congrArg (SyncId N) (hid (p / 4) (p % 4))) ?_
      split
      · exact hsy _ (Nat.mod_lt _ (by decide))
      · next hc' =>
        rcases Bool.or_eq_true_iff.1 hp with hp | hp
        · exact h.1.bits p hp
        · have hp := of_decide_eq_true hp
          exact absurd ⟨by omega, by omega⟩ hc'
  have hlast : ∀ {m : Node}, NodeO B env ⟨N, fun i => i ≤ tp, fun i => i = tp⟩ m → NodeO B env ⟨N, fun _ => False, fun _ => False⟩ m :=
    fun hm => hm.know (fun _ h => h.elim) (fun _ h => h.elim)
  generalize Node.setTx env (n.fillRow tp tpl nr rx tx) tp nr = r at *
  unfold thenOk
  split
  · dsimp only
    have hrx : NodeO B env ⟨N, fun i => i ≤ tp, fun i => i = tp⟩ (Node.setRx env r.1 tp nr).1 := by
      unfold Node.setRx
      simp only
      have := NodeO.setRow hs tp (fun r => { r with rxObjSync := r.rxObj }) (fun _ => ⟨rfl, rfl, rfl, rfl⟩)
      refine .forErr _ (fun i hi n h => h.setRx1 tp hw ?_) this
      have h4 := this.1.rob tp
      have hi := List.mem_range.1 hi
      omega
    generalize Node.setRx env r.1 tp nr = q at *
    split
    · have hf := hrx.finish h8 tp q.1.nrMod hw ((List.range (tp + 1)).map fun i => (q.1.rows i).nr)
      generalize Node.finish env q.1 tp q.1.nrMod nr ((List.range (tp + 1)).map fun i => (q.1.rows i).nr) = z at *
      refine ⟨⟨hf.1.nr, fun i hi => ?_, fun _ h => h.elim, fun _ h => h.elim, hf.1.chg, hf.1.tob, hf.1.rob, hf.1.cfg, hf.1.bits, hf.1.defs, hf.1.num⟩, hf.2⟩
      refine hf.1.reg i ?_
      have a : z.1.nrMod ≤ tp := hf.1.lim tp rfl
      have b : i < z.1.nrMod + 1 := hi
      show i ≤ tp
      omega
    · exact hlast hrx
  · exact hlast hs

theorem NodeO.addModule {N : Nat → Prop} (h8 : env.maxMod ≤ 8) {n : Node} (h : NodeO B env ⟨N, fun _ => False, fun _ => False⟩ n) {tpl : Row} {nr : Nat}
    (rx tx : Nat → Nat) (hn : N nr) (hr : 2 ≤ nr ∧ nr ≤ 124) (h1 : tpl.typ ≠ []) (h2 : tpl.txObj ≤ 4) (h3 : tpl.rxObj ≤ 4)
    (hok : (n.addModule env tpl nr rx tx).2 ≠ E.redeclaredNr) : NodeO B env ⟨N, fun _ => False, fun _ => False⟩ (n.addModule env tpl nr rx tx).1 := by
  unfold Node.addModule at *
  split
  · exact h
  · next i hi =>
    have hlt := find_lt hi
    have hb : ∀ j < i, (n.rows j).typ ≠ [] := by
      intro j hj e
      have h9 := List.find?_range_eq_some.1 hi
      have := h9.2.2 j hj
      simp [e] at this
    have hfree : (n.rows i).typ = [] := by simpa using List.find?_some hi
    have hc : n.nrMod ≤ i := by
      rcases Nat.lt_or_ge i n.nrMod with hl | hl
      · exact absurd hfree (h.1.pre i hl)
      · exact hl
    rw [hi] at hok
    simp only at hok
    split
    · next hd => rw [if_pos hd] at hok; exact absurd rfl hok
    · have e : effNr i nr = nr := by unfold effNr; rw [if_neg (by omega)]
      exact (h.setModule h8 rx tx hlt (by rw [e]; exact hn) (by rw [e]; exact ⟨by omega, by omega⟩) h1 h2 h3 hb hc).report _

theorem NodeO.changeNr (h8 : env.maxMod ≤ 8) {n : Node} (h : NodeO B env w n) (typ : List Byte) {nr : Nat} (act : Nat) (hn : w.N nr) (hw : NrOk nr) :
    NodeO B env w (n.changeNr env typ nr act).1 := by
  unfold Node.changeNr
  split
  · exact h.congr (fun _ => same_refl _) rfl rfl rfl rfl h.1.defs rfl
  · next tp ht =>
    have htp := find_lt ht
    have hrow : ∀ i, ((n.setRow tp fun r => { r with nr := nr }).rows i) = if i = tp then { n.rows tp with nr := nr } else n.rows i := by
      intro i; simp only [Node.setRow, upd]
    have h1 : NodeO B env w (n.setRow tp fun r => { r with nr := nr }) := by
      refine ⟨⟨fun i hi => ?_, fun i hi => ?_, fun i hi => ?_, h.1.lim, h.1.chg, fun i => ?_, fun i => ?_, fun i hi j hj => ?_, h.1.bits, h.1.defs, h.1.num⟩, h.2⟩
      · rw [hrow]; split
        · exact .inl hn
        · exact h.1.nr i hi
      · rw [hrow]; split
        · next e => rw [← e]; exact h.1.pre i hi
        · exact h.1.pre i hi
      · rw [hrow]; split
        · next e => rw [← e]; exact h.1.reg i hi
        · exact h.1.reg i hi
      · rw [hrow]; split
        · exact h.1.tob tp
        · exact h.1.tob i
      · rw [hrow]; split
        · exact h.1.rob tp
        · exact h.1.rob i
      · rw [hrow] at hj
        split at hj
        · next e => rw [e]; exact h.1.cfg tp htp j hj
        · exact h.1.cfg i hi j hj
    generalize (n.setRow tp fun r => { r with nr := nr }) = m at *
    simp only
    rw [renumTx_eq env m tp nr htp (h1.1.tob tp), thenOk_ok]
    have h2 : NodeO B env w { m with tx := Node.cnfgTx m.tx (m.rows tp).txDlc tp nr (m.rows tp).txObj } := h1.cnfgTx h8 hn hw htp _ _ (h1.1.tob tp)
    generalize { m with tx := Node.cnfgTx m.tx (m.rows tp).txDlc tp nr (m.rows tp).txObj } = m2 at *
    refine .then ?_ fun n h => h.finish h8 _ _ hw _
    unfold Node.renumRx
    refine .forErr _ (fun i hi n h => h.define _ _ (defO_syncRx hw ?_ _ _)) h2
    have h4 := h2.1.rob tp
    have hi := List.mem_range.1 hi
    omega

/-- The build and the application: at most eight modules, numbers given by the voter belong to the node. -/
structure EnvO (env : Env) (N : Nat → Prop) : Prop where
  m8 : env.maxMod ≤ 8
  num : Numbers N
  vote : ∃ v, env.voter = some v ∧ ∀ t nr act, v t nr act = .valid ∨ v t nr act = .validButSilent → N nr

theorem NodeO.changeModuleNr (he : EnvO env w.N) {n : Node} (h : NodeO B env w n) (tp nr : Nat) : NodeO B env w (n.changeModuleNr env tp nr).1 := by
  obtain ⟨v, hv, hok⟩ := he.vote
  unfold Node.changeModuleNr
  simp only [hv]
  have := hok (n.rows tp).typ nr (n.rows tp).nr
  cases hx : v (n.rows tp).typ nr (n.rows tp).nr with
  | valid => exact (h.changeNr he.m8 _ _ (this (.inl hx)) (he.num _ (this (.inl hx)))).then fun _ h => h.silentAwake he.m8 _ _
  | validButSilent => exact (h.changeNr he.m8 _ _ (this (.inr hx)) (he.num _ (this (.inr hx)))).then fun _ h => h.silentAwake he.m8 _ _
  | _ => exact h

theorem NodeO.changeType {n : Node} (h : NodeO B env w n) (tp : Nat) (typ : List Byte) : NodeO B env w (n.changeType env tp typ).1 := by
  unfold Node.changeType
  rw [h.1.chg tp]
  exact h

theorem toSlave_proc : ToSlave 0x001 := .inl rfl
theorem toSlave_sys : ToSlave 0x002 := .inr ⟨1, by decide, .inl (by decide)⟩
theorem toSlave_ctrl : ToSlave 0x600 := .inr ⟨1, by decide, .inr (.inr (.inl (by decide)))⟩

theorem NodeO.init {N : Nat → Prop} {n : Node} (h : NodeO B env ⟨N, fun _ => False, fun _ => False⟩ n) :
    NodeO B env ⟨N, fun _ => False, fun _ => False⟩ (n.init env).1 := by
  unfold Node.init
  simp only
  have h1 : NodeO B env ⟨N, fun _ => False, fun _ => False⟩ { n with
    nrMod := 0
    rows := fun i => if i < env.maxMod then { n.rows i with typ := [] } else n.rows i
    hw := { n.hw with
      used := fun i => if i < env.nObj then false else n.hw.used i
      defs := fun i => if i < env.nObj then none else n.hw.defs i } } := by
    refine ⟨⟨fun i hi => ?_, fun i hi => ?_, fun i hi => hi.elim, fun i hi => hi.elim, h.1.chg, fun i => ?_, fun i => ?_, fun i hi j hj => ?_, h.1.bits, fun o d hd => ?_, h.1.num⟩, h.2⟩
    · dsimp only
      rw [if_pos hi]
      exact (h.1.nr i hi).imp id (fun x => ⟨rfl, x.2⟩)
    · exact absurd hi (Nat.not_lt_zero i)
    · dsimp only; split
      · exact h.1.tob i
      · exact h.1.tob i
    · dsimp only; split
      · exact h.1.rob i
      · exact h.1.rob i
    · simp only [if_pos hi] at hj
      exact h.1.cfg i hi j hj
    · simp only at hd
      split at hd
      · cases hd
      · exact h.1.defs o d hd
  refine .then (.then (.then (.then (h1.define _ _ (defO_full (by decide) toSlave_proc)) ?_) ?_) ?_) ?_
  · exact fun _ h => h.define _ _ (defO_full (by decide) toSlave_sys)
  · intro n h
    split
    · exact h.define _ _ (defO_full (by decide) toSlave_sys)
    · exact h
  · exact fun _ h => h.define _ _ (defO_full (by decide) toSlave_ctrl)
  · exact fun _ h => h.define _ _ (defO_tx _ _ _)

/-! ## Transmission -/

theorem fromSync {N : Nat → Prop} {id : Nat} (h : SyncId N id) : FromSlave N id := by
  obtain ⟨n, hn, j, hj, e⟩ := h
  exact ⟨n, hn, .inr (.inl ⟨j, hj, e⟩)⟩

theorem NodeO.sendOne {n : Node} (h : NodeO B env w n) (tp obj : Nat) (buf : List Byte) (hid : SyncId w.N (n.tx.id tp obj)) :
    NodeO B env w (Node.sendOne env n tp obj buf).1 ∧ (Node.sendOne env n tp obj buf).1.tx = n.tx := by
  unfold Node.sendOne
  simp only
  have ht : ∀ (m : Node) (e : Err), (m.report env e).tx = m.tx := by intro m e; unfold Node.report; split <;> rfl
  split
  · exact ⟨h.congr (fun _ => same_refl _) rfl rfl rfl rfl h.1.defs rfl, rfl⟩
  · generalize callTx env ((n.rows tp).txMainSync obj) (n.mem ((n.rows tp).tx obj)) ((n.rows tp).txDlc obj) buf = r at *
    split
    · refine ⟨NodeO.report ⟨h.1.light (.send ..), h.2.cons rfl ?_⟩ _, by rw [ht]; rfl⟩
      intro f ok e
      injection e with e _
      subst e
      exact fromSync hid
    · exact ⟨h.report _, ht ..⟩

theorem sendRun_owned (k : Nat) : ∀ (s : SendSt), NodeO B env w s.node →
    (∀ p, s.send.getLsbD p = true → SyncId w.N (s.node.tx.id ((s.cur + p) / 4) ((s.cur + p) % 4))) →
    ∀ n', sendRun env k s = some n' → NodeO B env w n' := by
  induction k with
  | zero =>
    intro s h hb n' e
    simp only [sendRun] at e
    split at e
    · injection e with e; rw [← e]; exact h
    · cases e
  | succ k ih =>
    intro s h hb n' e
    simp only [sendRun] at e
    cases hs : sendStep env s with
    | none => rw [hs] at e; injection e with e; rw [← e]; exact h
    | some s1 =>
      rw [hs] at e
      replace e : sendRun env k s1 = some n' := e
      have hsh : ∀ p, (s.send >>> 1).getLsbD p = true → SyncId w.N (s.node.tx.id ((s.cur + 1 + p) / 4) ((s.cur + 1 + p) % 4)) := by
        intro p hp
        rw [shift_bit] at hp
        have := hb (p + 1) hp
        rwa [show s.cur + 1 + p = s.cur + (p + 1) by omega]
      unfold sendStep at hs
      split at hs
      · cases hs
      split at hs
      · injection hs with hs; subst hs; exact ih _ (by exact h) (by exact hsh) n' e
      split at hs
      · next hl =>
        injection hs with hs; subst hs
        obtain ⟨a, b⟩ := h.sendOne (s.cur / 4) (s.cur % 4) s.buf (hb 0 hl)
        refine ih ⟨_, _, _, _⟩ a ?_ n' e
        intro p hp
        show SyncId w.N ((Node.sendOne env s.node (s.cur / 4) (s.cur % 4) s.buf).1.tx.id _ _)
        rw [b]
        exact hsh p hp
      · injection hs with hs; subst hs; exact ih _ (by exact h) (by exact hb) n' e

theorem NodeO.process {n n' : Node} (h : NodeO B env w n) (e : n.sendProcessData env = some n') : NodeO B env w n' :=
  sendRun_owned 32 _ h (fun p hp => by simpa using h.1.bits p hp) n' e

/-- Calls of the application with numbers of the node only: a module is registered with a type name, a valid number of the node that none of its
modules has, and at most four objects per direction; no module type is exchanged. -/
def OpO (env : Env) (N : Nat → Prop) (n : Node) : Op → Prop
  | .add tpl nr rx tx => tpl.typ ≠ [] ∧ tpl.txObj ≤ 4 ∧ tpl.rxObj ≤ 4 ∧ N nr ∧ (2 ≤ nr ∧ nr ≤ 124) ∧ (n.addModule env tpl nr rx tx).2 ≠ E.redeclaredNr
  | .changeTypeAdd .. => False
  | .changeNr _ nr _ => N nr
  | _ => True

theorem NodeO.step {N : Nat → Prop} (he : EnvO env N) {n : Node} (h : NodeO B env ⟨N, fun _ => False, fun _ => False⟩ n) (o : Op) (ho : OpO env N n o) :
    NodeO B env ⟨N, fun _ => False, fun _ => False⟩ (n.step env o).1 := by
  cases o with
  | add tpl nr rx tx => exact h.addModule he.m8 rx tx ho.2.2.2.1 ho.2.2.2.2.1 ho.1 ho.2.1 ho.2.2.1 ho.2.2.2.2.2
  | silentAwake tp st => exact h.silentAwake he.m8 tp st
  | silentAwakeBy typ nr st =>
    simp only [Node.step, Node.setSilentAwakeBy]
    split
    · exact h.silentAwake he.m8 _ _
    · exact h
  | setActive typ =>
    simp only [Node.step, Node.setActive]
    split
    · next ht => exact h.syncOn he.m8 (find_lt ht)
    · exact h
  | setCritical typ =>
    simp only [Node.step, Node.setCritical]
    split
    · next ht => exact h.syncOff _ (by have := find_lt ht; have := he.m8; omega)
    · exact h
  | process =>
    simp only [Node.step]
    cases hx : sendProcessData env n with
    | none => exact h
    | some n' => exact h.process hx
  | changeNr typ nr act => exact h.changeNr he.m8 typ act ho (he.num _ ho)
  | changeModuleNr tp nr => exact h.changeModuleNr he tp nr
  | changeTypeAdd typ tpl rx tx cb => exact ho.elim
  | changeType tp typ => exact h.changeType tp typ

end Node
namespace Slave
open Node
variable {env : Env} {w : Own} {B : List Ev}

/-- the row has a number of the node -/
def Named (w : Own) (n : Node) (tp : Nat) : Prop := (n.rows tp).typ ≠ [] ∨ w.N (n.rows tp).nr

theorem Named.num {n : Node} {tp : Nat} (h : Named w n tp) (s : StatO env w n) (ht : tp < env.maxMod) : w.N (n.rows tp).nr := by
  rcases h with h | h
  · rcases s.nr tp ht with a | a
    · exact a
    · exact absurd a.1 h
  · exact h

/-- system messages are sent for numbers of the node -/
def SysO (B : List Ev) (env : Env) (w : Own) (n n' : Node) : Prop := Light n n' ∧ (StatO env w n → LogO B w.N n → LogO B w.N n')

theorem SysO.refl (n : Node) : SysO B env w n n := ⟨.refl _, fun _ h => h⟩
theorem SysO.trans {a b c : Node} (h : SysO B env w a b) (g : SysO B env w b c) : SysO B env w a c :=
  ⟨h.1.trans g.1, fun s l => g.2 (s.light h.1) (h.2 s l)⟩
theorem SysO.owned {n n' : Node} (h : SysO B env w n n') (g : NodeO B env w n) : NodeO B env w n' := ⟨g.1.light h.1, h.2 g.1 g.2⟩

theorem SysO.sendSys (n : Node) (nr : Nat) (d : List Byte) (hn : StatO env w n → (∃ tp < env.maxMod, (n.rows tp).nr = nr) → w.N nr) :
    SysO B env w n (n.sendSys env nr d).1 := by
  refine ⟨.sendSys .., fun s l => ?_⟩
  unfold Node.sendSys
  split
  · next tp ht =>
    split
    · refine l.cons rfl ?_
      intro f ok e
      injection e with e _
      subst e
      have h1 := find_lt ht
      have h2 : (n.rows tp).nr = nr := by simpa using List.find?_some ht
      refine ⟨nr, hn s ⟨tp, h1, h2⟩, .inl ?_⟩
      show sysTxId nr = _
      have : nr ≤ 128 ∧ 1 ≤ nr := by
        rcases s.nr tp h1 with a | a
        · rw [h2] at a; have := s.num _ a; exact ⟨this.2, this.1⟩
        · omega
      unfold sysTxId idOf; omega
    · exact l
  · exact l

theorem SysO.sendOneError (hR : w.R 0) (n : Node) : SysO B env w n (sendOneError env n).1 := by
  unfold Slave.sendOneError
  have hq : ∀ q, SysO B env w n { n with errq := q } := fun q => ⟨⟨rfl, rfl, rfl, rfl, rfl, rfl, rfl, rfl⟩, fun _ h => h⟩
  split
  · split
    · next q _ x _ _ =>
      refine (hq q).trans ?_
      unfold sendError
      refine .sendSys _ _ _ ?_
      intro s ⟨tp, ht, hx⟩
      split
      · exact (Named.num (.inl (s.reg 0 hR)) s (by omega))
      · next hc =>
        rw [if_neg hc] at hx
        rcases s.nr tp ht with a | a
        · rw [← hx]; exact a
        · omega
    · exact hq _
  · exact hq _

theorem drain_sysO (hR : w.R 0) (k : Nat) : ∀ (r r' : Node × Err), drain env k r = some r' → SysO B env w r.1 r'.1 := by
  induction k with
  | zero =>
    intro r r' h
    simp only [drain] at h
    split at h
    · injection h with h; rw [← h]; exact .refl _
    · cases h
  | succ k ih =>
    intro r r' h
    simp only [drain] at h
    split at h
    · injection h with h; rw [← h]; exact .refl _
    · exact (SysO.sendOneError hR r.1).trans (ih _ _ h)

theorem statusAckn_sysO (s : Slave) (tp : Nat) (h : Named w s.node tp) : SysO B env w s.node (statusAckn env s tp).1.node := by
  unfold statusAckn
  split
  · exact .refl _
  · split
    · exact .refl _
    · exact .sendSys _ _ _ (fun o _ => h.num o (by omega))

theorem versionAckn_sysO (s : Slave) (tp : Nat) (h : Named w s.node tp) : SysO B env w s.node (versionAckn env s tp).1.node := by
  unfold versionAckn
  split
  · exact .refl _
  · split
    · exact .refl _
    · simp only
      have h1 : ∀ d, SysO B env w s.node (s.node.sendSys env (s.node.rows tp).nr d).1 :=
        fun d => .sendSys _ _ _ (fun o _ => h.num o (by omega))
      split
      · exact h1 _
      · refine (h1 _).trans (.sendSys _ _ _ (fun o _ => ?_))
        have hl := (h1 (version1Bytes (u8 env.boot.1) (u16 env.boot.2) (u8 env.soft.1) (u16 env.soft.2))).1.rows
        have : Named w (s.node.sendSys env (s.node.rows tp).nr (version1Bytes (u8 env.boot.1) (u16 env.boot.2) (u8 env.soft.1) (u16 env.soft.2))).1 tp := by
          unfold Named; rw [hl]; exact h
        have := this.num o (by omega)
        rwa [hl] at this

theorem forRows_sysO {f : Slave → Nat → Slave × Err} (hf : ∀ s i, Named w s.node i → SysO B env w s.node (f s i).1.node) (is : List Nat) : ∀ s : Slave,
    (∀ i ∈ is, Named w s.node i) → SysO B env w s.node (forRows f is s).1.node := by
  induction is with
  | nil => exact fun s _ => .refl _
  | cons i is ih =>
    intro s hi
    have h1 := hf s i (hi i (List.mem_cons_self ..))
    simp only [forRows]
    split
    · exact h1
    · refine h1.trans (ih _ (fun j hj => ?_))
      unfold Named; rw [h1.1.rows]
      exact hi j (List.mem_cons_of_mem _ hj)

/-- only events that are not frames were added -/
theorem SysO.log {n n' : Node} (l : List Ev) (hl : n' = { n with log := l ++ n.log }) (hf : ∀ e ∈ l, ∀ f ok, e ≠ .frame f ok) :
    SysO B env w n n' := by
  subst hl
  refine ⟨⟨rfl, rfl, rfl, rfl, rfl, rfl, rfl, rfl⟩, fun _ h => ?_⟩
  obtain ⟨new, h1, h2⟩ := h
  refine ⟨l ++ new, by rw [List.append_assoc, ← h1], fun f ok hm => ?_⟩
  rcases List.mem_append.1 hm with hm | hm
  · exact absurd rfl (hf _ hm f ok)
  · exact h2 f ok hm

theorem callOpt_sysO (s : Slave) (f : Option Nat) : SysO B env w s.node (s.callOpt f).node :=
  .log (calls f) (callOpt_node s f) (calls_noFrame f)

theorem statusRequest_sysO (s : Slave) (dst : Option Nat) (hd : ∀ tp, dst = some tp → Named w s.node tp) (ha : dst = none → ∀ i < s.node.nrMod, Named w s.node i) : SysO B env w s.node (statusRequest env s dst).1.node := by
  rw [statusRequest_head]
  have h : SysO B env w s.node (statusHead env s).node := by
    refine .log ((if env.randAck then [Ev.wait (rand s.sys.rand).2] else []) ++ (if s.sys.first then [] else calls s.sys.firstCb)) ?_ ?_
    · simp only [statusHead, List.append_assoc]
    · intro e he f ok
      rcases List.mem_append.1 he with he | he
      · split at he
        · rw [List.mem_singleton.1 he]; simp
        · cases he
      · split at he
        · cases he
        · exact calls_noFrame _ e he f ok
  cases dst with
  | none =>
    refine h.trans (forRows_sysO statusAckn_sysO _ _ (fun i hi => ?_))
    unfold Named; rw [h.1.rows]
    exact ha rfl i (by have := List.mem_range.1 hi; exact this)
  | some tp =>
    refine h.trans (statusAckn_sysO _ tp ?_)
    unfold Named; rw [h.1.rows]
    exact hd tp rfl

theorem sysMsg_owned (he : EnvO env w.N) (hR : w.R 0) {s s' : Slave} {nr dlc : Nat} {src : List Byte} {e : Err} (hl : NodeO B env w s.node)
    (hnr : 125 ≤ nr → nr ≤ 127 → w.N nr)
    (h : sysMsg env s nr dlc src = some (s', e)) : NodeO B env w s'.node := by
  have same : ∀ {r : Slave × Err}, some r = some (s', e) → NodeO B env w r.1.node → NodeO B env w s'.node := by
    intro r h g
    have := congrArg Prod.fst (Option.some.inj h)
    simp only at this
    rw [← this]; exact g
  have one : ∀ e : Ev, (∀ f ok, e ≠ .frame f ok) → NodeO B env w { s.node with log := e :: s.node.log } := by
    intro e he
    exact (SysO.log [e] rfl (by intro x hx; rw [List.mem_singleton.1 hx]; exact he)).owned hl
  have hsa : ∀ st, NodeO B env w (sysSilentAwake env s src nr st).1.node := by
    intro st
    unfold sysSilentAwake
    split
    · split
      · split
        · exact hl.silentAwake he.m8 _ _
        · exact hl
      · exact hl
    · exact hl
  unfold sysMsg at h
  split at h
  · exact same h hl
  simp only at h
  have hall : ∀ i < s.node.nrMod, Named w s.node i := fun i hi => .inl (hl.1.pre i hi)
  have hdst : ∀ tp, (if nr = 1 then none else findNr env s.node nr) = some tp → Named w s.node tp := by
    intro tp ht
    split at ht
    · cases ht
    · have h1 := find_lt ht
      have h2 : (s.node.rows tp).nr = nr := by simpa using List.find?_some ht
      rcases hl.1.nr tp h1 with a | a
      · exact .inr a
      · rw [h2] at a
        refine .inr ?_
        rw [h2]; exact hnr a.2.1 a.2.2
  generalize (if nr = 1 then none else findNr env s.node nr) = dst at h hdst
  split at h
  · exact same h hl
  split at h
  · exact same h hl
  split at h
  · have hr := (statusRequest_sysO (env := env) s dst hdst (fun _ => hall)).owned hl
    generalize statusRequest env s dst = r at *
    split at h
    · exact same h hr
    split at h
    · simp only [Option.map_eq_some_iff] at h
      obtain ⟨x, hx, hx'⟩ := h
      have := congrArg Prod.fst hx'
      simp only at this
      rw [← this]
      exact (drain_sysO hR _ _ _ hx).owned hr
    · exact same h hr
  · split at h
    · exact same h hl
    · exact same h hl
  · exact same h hl
  · split at h
    · exact same h ((forRows_sysO versionAckn_sysO _ _ (fun i hi => hall i (List.mem_range.1 hi))).owned hl)
    · exact same h ((versionAckn_sysO _ _ (hdst _ rfl)).owned hl)
  · split at h
    · exact same h (one _ (by simp))
    · exact same h hl
  · refine same h ?_
    unfold setCycle; split <;> exact hl
  · exact same h hl
  · exact same h hl
  · split at h
    · exact same h hl
    split at h
    · exact same h (hl.changeModuleNr he _ _)
    · exact same h hl
  · split at h
    · exact same h hl
    · exact same h (hsa 0)
  · split at h
    · exact same h hl
    · exact same h (hsa 1)
  · exact same h hl
  · split at h
    · exact same h (one _ (by simp))
    · exact same h hl
  · split at h
    · exact same h hl
    split at h
    · exact same h (hl.changeType _ _)
    · exact same h hl
  · exact same h hl

theorem reqRx_sysO (s : Slave) : SysO B env w s.node (reqRx s).node := by
  have fold : ∀ (is : List Nat) (s : Slave), SysO B env w s.node (is.foldl (fun s i => s.callOpt (s.sync.reqCb i)) s).node := by
    intro is
    induction is with
    | nil => exact fun s => .refl _
    | cons i is ih => exact fun s => (callOpt_sysO s _).trans (ih _)
  unfold reqRx
  simp only
  split
  · exact fold _ _
  · exact (callOpt_sysO (env := env) { s with sync := { s.sync with first := true } } s.sync.firstCb).trans (fold _ _)

theorem checkStep_sysO (now : Nat) (r : Slave × Bool) (i : Nat) : SysO B env w r.1.node (checkStep now r i).1.node := by
  have h : (checkModule r.1 now i).1.node = r.1.node := by
    unfold checkModule; split <;> rfl
  unfold checkStep
  simp only
  generalize checkModule r.1 now i = c at *
  rw [← h]
  split
  · exact callOpt_sysO { c.1 with sync := { c.1.sync with valid := upd c.1.sync.valid i false } } _
  · exact callOpt_sysO { c.1 with sync := { c.1.sync with valid := upd c.1.sync.valid i true } } _

theorem checkImage_sysO (s : Slave) (now : Nat) : SysO B env w s.node (checkImage env s now).node := by
  have fold : ∀ (is : List Nat) (r : Slave × Bool), SysO B env w r.1.node (is.foldl (checkStep now) r).1.node := by
    intro is
    induction is with
    | nil => exact fun s => .refl _
    | cons i is ih => exact fun s => (checkStep_sysO now s i).trans (ih _)
  have := fold (List.range s.node.nrMod) (s, true)
  unfold checkImage
  split
  · split
    · exact .refl _
    split
    · exact .refl _
    · simp only
      generalize (List.range s.node.nrMod).foldl (checkStep now) (s, true) = r at *
      split
      · exact this.trans (callOpt_sysO (env := env) { r.1 with sync := { r.1.sync with timeValid := now } } r.1.sync.allCb)
      · exact this
  · exact .refl _

theorem request_owned (hR : w.R 0) {s s' : Slave} {now dlc : Nat} (hl : NodeO B env w s.node) (h : processRequest env s now dlc = some s') :
    NodeO B env w s'.node := by
  have h1 : NodeO B env w (checkImage env (reqRx s) now).node := ((reqRx_sysO s).trans (checkImage_sysO _ now)).owned hl
  unfold processRequest at h
  simp only at h
  generalize checkImage env (reqRx s) now = k at *
  split at h
  · cases h
  · next n hn =>
    have h2 := h1.process hn
    split at h
    · injection h with h; subst h
      exact (SysO.sendOneError hR n).owned h2
    · injection h with h; subst h; exact h2

theorem dataPart_owned {s : Slave} (hl : NodeO B env w s.node) (obj dlc id : Nat) (data : List Byte) : NodeO B env w (dataPart env s obj dlc id data).node := by
  have d := dataPart_keeps env s obj dlc id data
  exact ⟨hl.1.light d.1, by unfold LogO; rw [d.2.2.2.1]; exact hl.2⟩

theorem frame_owned {N : Nat → Prop} (he : EnvO env N) {s s' : Slave} {now obj dlc id : Nat} {data : List Byte}
    (hl : NodeO B env ⟨N, fun _ => False, fun _ => False⟩ s.node) (hr0 : (s.node.rows 0).typ ≠ [])
    (hid : ∀ n, 125 ≤ n → n ≤ 127 → sysNrOfId id = n → N n)
    (h' : handlerRx env s now obj dlc id data = some s') : NodeO B env ⟨N, fun _ => False, fun _ => False⟩ s'.node := by
  have hl : NodeO B env ⟨N, fun i => i = 0, fun _ => False⟩ s.node := hl.know (fun i hi => by subst hi; exact hr0) (fun _ h => h.elim)
  suffices h : NodeO B env ⟨N, fun i => i = 0, fun _ => False⟩ s'.node from h.know (fun _ h => h.elim) (fun _ h => h.elim)
  rw [handlerRx_eq] at h'
  have h1 := dataPart_owned hl obj dlc id data
  generalize dataPart env s obj dlc id data = s1 at *
  have hr : ∀ s2, reqPart env s1 now obj dlc = some s2 → NodeO B env ⟨N, fun i => i = 0, fun _ => False⟩ s2.node := by
    intro s2 h2
    unfold reqPart at h2
    split at h2
    · exact request_owned rfl h1 h2
    · injection h2 with h2; rw [← h2]; exact h1
  split at h'
  · simp only [Option.bind_eq_some_iff] at h'
    obtain ⟨s2, h2, h3⟩ := h'
    simp only [sysPart, Option.map_eq_some_iff] at h3
    obtain ⟨⟨r, e⟩, h4, h5⟩ := h3
    subst h5
    exact (sysMsg_owned he rfl (hr s2 h2) (fun a b => hid _ a b rfl) h4).report _
  · exact hr s' h'

/-- API calls with numbers of the node -/
def InO (env : Env) (N : Nat → Prop) (s : Slave) : In → Prop
  | .table o => OpO env N s.node o
  | .frame _ _ _ id _ => (s.node.rows 0).typ ≠ [] ∧ ∀ n, 125 ≤ n → n ≤ 127 → sysNrOfId id = n → N n
  | _ => True

theorem step_owned {N : Nat → Prop} (he : EnvO env N) {s s' : Slave} {i : In} (hl : NodeO B env ⟨N, fun _ => False, fun _ => False⟩ s.node) (hi : InO env N s i)
    (h : Slave.step env s i = some s') : NodeO B env ⟨N, fun _ => False, fun _ => False⟩ s'.node := by
  cases i with
  | frame now obj dlc id data => exact frame_owned he hl hi.1 hi.2 h
  | trigger now =>
    injection h with h; subst h
    obtain ⟨p, hp⟩ := trigger_eq env s now
    rw [hp]; exact hl
  | getPeriode => injection h with h; subst h; exact hl
  | setCycle t =>
    injection h with h; subst h
    unfold setCycle; split <;> exact hl
  | validCb typ nr f =>
    injection h with h; subst h
    rcases setModCb_keeps env s typ nr (fun v tp => { v with validCb := upd v.validCb tp f }) with e | ⟨tp, e⟩ <;> rw [e] <;>
      exact hl
  | invalidCb typ nr f =>
    injection h with h; subst h
    rcases setModCb_keeps env s typ nr (fun v tp => { v with invalidCb := upd v.invalidCb tp f }) with e | ⟨tp, e⟩ <;> rw [e] <;>
      exact hl
  | reqCb typ nr f =>
    injection h with h; subst h
    rcases setModCb_keeps env s typ nr (fun v tp => { v with reqCb := upd v.reqCb tp f }) with e | ⟨tp, e⟩ <;> rw [e] <;>
      exact hl
  | timeCb f =>
    injection h with h; subst h
    unfold setTimeCb; split <;> exact hl
  | resetCb f =>
    injection h with h; subst h
    unfold setResetCb; split <;> exact hl
  | init baud =>
    injection h with h; subst h
    unfold Slave.init
    simp only
    have := hl.init
    generalize s.node.init env = r at *
    split <;> exact this
  | table o => injection h with h; subst h; exact hl.step he o hi
  | setMode m => injection h with h; subst h; exact hl
  | setBaud b => injection h with h; subst h; exact hl
  | allCb f => injection h with h; subst h; exact hl
  | firstCb f => injection h with h; subst h; exact hl
  | firstStatusCb f => injection h with h; subst h; exact hl

end Slave
end LiCan
