import Verif.Lemmas.Cpu2Run
import Verif.Lemmas.SlaveHw
import Verif.Props.Ids
import Verif.Props.Cpu2
/-!
# The monitor CPU follows the main CPU (property C121)

What the main CPU transmits arrives in the transmit data of the same module of the monitor CPU; what the master
transmits arrives in the receive data.
-/
namespace LiCan
namespace Cpu2
open Node Slave

/-- C121: identifiers of the four data messages of module `nr` sent by the slave, and by the master -/
def _root_.LiCan.Spec.slaveId (nr i : Nat) : Nat := 0x400 + 4 * (nr - 1) + i
def _root_.LiCan.Spec.masterId (nr i : Nat) : Nat := 0x200 + 4 * (nr - 1) + i

/-- a device whose rows with process data have different numbers of 1 .. 128 -/
def _root_.LiCan.Spec.Numbered (env : Env) (n : Node) : Prop :=
  ∀ t < env.maxMod, 0 < (n.rows t).txObj + (n.rows t).rxObj → 1 ≤ (n.rows t).nr ∧ (n.rows t).nr ≤ 128 ∧
    ∀ t' < env.maxMod, 0 < (n.rows t').txObj + (n.rows t').rxObj → (n.rows t').nr = (n.rows t).nr → t' = t

/-- the message object lets the identifier through -/
def _root_.LiCan.Spec.Takes (env : Env) (n : Node) (obj id : Nat) : Prop :=
  obj < env.nObj ∧ ∃ d, n.hw.defs obj = some d ∧ hwAccepts (BitVec.ofNat 16 d.id) d.mask (BitVec.ofNat 16 id) = true

/-- the states of a monitor CPU in normal use: initialised once, every registration successful -/
def _root_.LiCan.Spec.MonLife (env : Env) (c : Cpu2) : Prop :=
  ∃ mem baud is c0, step env (boot mem) (.api (.init baud)) = some c0 ∧ Fine env c0 is ∧ run env c0 is = some c

open Spec

theorem nrOfId_tx : ∀ k < 512, nrOfId (0x400 + k) = k / 4 + 1 ∧ fromMaster (0x400 + k) = false := by decide +kernel
theorem nrOfId_rx : ∀ k < 512, nrOfId (0x200 + k) = k / 4 + 1 ∧ fromMaster (0x200 + k) = true := by decide +kernel

theorem _root_.LiCan.Spec.MonLife.rig {env : Env} (hh : ∀ k, env.hwOk k = true) (h10 : 10 < env.nObj) (hn : env.nObj ≤ 32) (h8 : env.maxMod ≤ 8)
    {c : Cpu2} (h : MonLife env c) : Rig env All c := by
  obtain ⟨mem, baud, is, c0, h0, hf, hr⟩ := h
  refine run_rig hh h10 hn h8 is c0 c ?_ hf hr
  have e : c0 = { (boot mem) with s := (Slave.init env (boot mem).s baud).1 } := by
    have := Option.some.inj h0; rw [← this]
  rw [e]; exact init_rig hh h10 mem baud

theorem slotRow_wires {env : Env} {n : Node} {lim : Bool → Nat → Nat} {ob : Bool → Nat → Nat → Nat} {df : Bool → Nat → Nat → ObjDef}
    (h : Wires env n.hw n.slots lim ob df) (hn : env.nObj ≤ 32) {o tp : Nat} (hs : (o, tp) ∈ n.slots) : n.slotRow o = some tp := by
  have ho : o < 32 := by have := (h.ok _ hs).1; dsimp only at this; omega
  unfold slotRow
  rcases hf : n.slots.find? (fun s => bit o &&& bit s.1 ≠ 0) with _ | s
  · have := List.find?_eq_none.1 hf _ hs
    refine absurd ?_ this
    simp only [ne_eq, decide_not, Bool.not_eq_eq_eq_not, Bool.not_true, decide_eq_false_iff_not]
    exact ne_zero_of_bit (p := o) (by simp [bit_get _ _ ho])
  · have hm := List.mem_of_find?_eq_some hf
    have hp := List.find?_some hf
    have hs32 : s.1 < 32 := by have := (h.ok _ hm).1; omega
    have e : s.1 = o := by
      have hp : bit o &&& bit s.1 ≠ 0 := by simpa using hp
      obtain ⟨p, hp⟩ := exists_bit hp
      simp only [BitVec.getLsbD_and, Bool.and_eq_true, bit_get _ _ ho, bit_get _ _ hs32, decide_eq_true_eq] at hp
      omega
    have := h.slot_inj (o := o) (tp := s.2) (tp' := tp) (by rw [← e]; exact hm) hs
    rw [hf, ← this]; rfl

theorem syncTx_eq {nr i : Nat} (h1 : 1 ≤ nr) (h2 : nr ≤ 128) (hi : i < 4) : syncTxId nr i = slaveId nr i := by
  unfold syncTxId slaveId; rw [idOf_eq _ _ _ h1 (by omega)]; omega
theorem syncRx_eq {nr i : Nat} (h1 : 1 ≤ nr) (h2 : nr ≤ 128) (hi : i < 4) : syncRxId nr i = masterId nr i := by
  unfold syncRxId masterId; rw [idOf_eq _ _ _ h1 (by omega)]; omega

theorem accepts_self (a : Nat) (m : BitVec 16) : hwAccepts (BitVec.ofNat 16 a) m (BitVec.ofNat 16 a) = true := by
  simp [hwAccepts]

/-- the message objects letting a data identifier through -/
theorem takes_iff {env : Env} {S : Nat → Prop} {c : Cpu2} (h : Rig env S c) (hnum : Numbered env c.s.node) (b : Bool) {tp i : Nat}
    (hi : i < lims c b tp) (obj : Nat) :
    Takes env c.s.node obj (if b then slaveId (c.s.node.rows tp).nr i else masterId (c.s.node.rows tp).nr i) ↔ obj = obs c b tp i := by
  have lim4 : ∀ b tp, lims c b tp ≤ 4 := fun b t => by cases b <;> simp [lims, (h.max t).1, (h.max t).2]
  have pos : ∀ b t i, i < lims c b t → 0 < (c.s.node.rows t).txObj + (c.s.node.rows t).rxObj := by
    intro b t i h; cases b <;> simp [lims] at h <;> omega
  have lt : ∀ b t i, i < lims c b t → t < env.maxMod := by
    intro b t i hi
    rcases Nat.lt_or_ge t env.maxMod with e | e
    · exact e
    · have := h.free t (h.big t e)
      have := pos b t i hi; omega
  have idf : ∀ b t i, i < lims c b t → (dfs c b t i).id = (if b then slaveId (c.s.node.rows t).nr i else masterId (c.s.node.rows t).nr i) ∧
      (dfs c b t i).mask = 0x7FF#16 := by
    intro b t i hi
    have k := hnum t (lt b t i hi) (pos b t i hi)
    have := lim4 b t
    cases b
    · exact ⟨syncRx_eq k.1 k.2.1 (by omega), rfl⟩
    · exact ⟨syncTx_eq k.1 k.2.1 (by omega), rfl⟩
  have nrs := hnum tp (lt b tp i hi) (pos b tp i hi)
  have i4 := lim4 b tp
  constructor
  · rintro ⟨ho, d, hd, ha⟩
    have hdata : d.svc = .rx true := by
      by_cases hs : d.svc = .rx true
      · exact hs
      · have := h.w.other obj d hd hs (if b then slaveId (c.s.node.rows tp).nr i else masterId (c.s.node.rows tp).nr i)
          (by cases b <;> simp [slaveId, masterId] <;> omega) (by cases b <;> simp [slaveId, masterId] <;> omega)
        rw [this] at ha; cases ha
    obtain ⟨t, ht⟩ := h.w.sync obj d hd hdata
    obtain ⟨b', j, hj, e⟩ := h.w.slot obj t ht
    have hp := (h.w.port b' t j hj).2
    rw [e, hd] at hp
    rw [Option.some.inj hp, (idf b' t j hj).2] at ha
    have hm := accepts_mod _ _ (by cases b <;> simp [slaveId, masterId] <;> omega) ha
    rw [(idf b' t j hj).1] at hm
    have nrt := hnum t (lt b' t j hj) (pos b' t j hj)
    have j4 := lim4 b' t
    have hbb : b' = b := by
      cases b <;> cases b' <;> simp [slaveId, masterId] at hm <;> first | rfl | omega
    subst hbb
    have hkey : (c.s.node.rows t).nr = (c.s.node.rows tp).nr ∧ j = i := by
      cases b' <;> simp [slaveId, masterId] at hm <;> omega
    have : t = tp := nrs.2.2 t (lt b' t j hj) (pos b' t j hj) hkey.1
    subst this
    rw [← e, hkey.2]
  · rintro rfl
    have hp := h.w.port b tp i hi
    refine ⟨(h.w.ok _ hp.1).1, _, hp.2, ?_⟩
    rw [(idf b tp i hi).1]
    exact accepts_self _ _

/-- a data frame goes to its row -/
theorem handlerRx_data {env : Env} (hn : env.nObj ≤ 32) {S : Nat → Prop} {c : Cpu2} (h : Rig env S c) (b : Bool) {tp i : Nat}
    (hi : i < lims c b tp) (now dlc id : Nat) (data : List Byte) :
    c.handlerRx env now (obs c b tp i) dlc id data = some (c.rxData env tp id dlc data).1 := by
  have hp := (h.w.port b tp i hi).1
  obtain ⟨k1, -, k3, k4⟩ := h.w.ok _ hp
  dsimp only at k1 k3 k4
  unfold handlerRx
  rw [if_pos ((bit_and_iff _ _ (by omega)).2 k3), slotRow_wires h.w hn hp]
  dsimp only
  rw [if_neg (fun e => k4 (.inl e)), if_neg]
  rintro (e | e)
  · exact k4 (.inr (.inl e))
  · exact k4 (.inr (.inr (.inl e)))

/-- **C121**: for every data message of every module exactly one message object lets it through. -/
theorem C121_one_object (env : Env) (hh : ∀ k, env.hwOk k = true) (h10 : 10 < env.nObj) (hn : env.nObj ≤ 32) (h8 : env.maxMod ≤ 8)
    (c : Cpu2) (hc : MonLife env c) (hnum : Numbered env c.s.node) (tp i : Nat) :
    (i < (c.s.node.rows tp).txObj → ∃ obj, ∀ o, Takes env c.s.node o (slaveId (c.s.node.rows tp).nr i) ↔ o = obj) ∧
    (i < (c.s.node.rows tp).rxObj → ∃ obj, ∀ o, Takes env c.s.node o (masterId (c.s.node.rows tp).nr i) ↔ o = obj) := by
  have h := hc.rig hh h10 hn h8
  exact ⟨fun hi => ⟨obs c true tp i, fun o => takes_iff h hnum true hi o⟩,
    fun hi => ⟨obs c false tp i, fun o => takes_iff h hnum false hi o⟩⟩

/-- a message of the main CPU -/
theorem main_frame {env : Env} (hn : env.nObj ≤ 32) {c c' : Cpu2} (h : Rig env All c) (hnum : Numbered env c.s.node)
    {tp i now obj dlc : Nat} {data : List Byte}
    (hi : i < (c.s.node.rows tp).txObj) {k : Nat} (hk : (c.x tp).conv i = .app k)
    (ht : Takes env c.s.node obj (slaveId (c.s.node.rows tp).nr i))
    (hs : step env c (.api (.frame now obj dlc (slaveId (c.s.node.rows tp).nr i) data)) = some c') :
    ((c.s.node.rows tp).txObjSync = (c.s.node.rows tp).txObj ∨ (c.s.node.rows tp).txObjSync = 0) ∧
    c' = (if (c.s.node.rows tp).txObjSync ≠ 0 ∧ (env.chk = true → dlc = (c.s.node.rows tp).rxDlcSync i) then
      { c with s := { c.s with node := { c.s.node with
          mem := upd c.s.node.mem ((c.s.node.rows tp).tx i) (env.rxConv k data dlc (c.s.node.mem ((c.s.node.rows tp).tx i))).1 } } }
      else c) ∧
    ((c.s.node.rows tp).txObjSync ≠ 0 → i < (c.s.node.rows tp).rxObj →
      (c.s.node.rows tp).rxDlcSync i = (c.s.node.rows tp).rxDlc i) := by
  have e := (takes_iff h hnum true hi obj).1 ht
  subst e
  have htp : tp < env.maxMod := by
    rcases Nat.lt_or_ge tp env.maxMod with e | e
    · exact e
    · have := h.free tp (h.big tp e); omega
  have nrs := hnum tp htp (by omega)
  have i4 : i < 4 := by have := (h.max tp).1; omega
  have hs : c.handlerRx env now (obs c true tp i) dlc _ data = some c' := hs
  rw [handlerRx_data hn h true hi] at hs
  have hs := Option.some.inj hs
  have hk1 := nrOfId_tx (4 * ((c.s.node.rows tp).nr - 1) + i) (by omega)
  have hid : slaveId (c.s.node.rows tp).nr i = 0x400 + (4 * ((c.s.node.rows tp).nr - 1) + i) := by unfold slaveId; omega
  have hobj : syncObjOfId (slaveId (c.s.node.rows tp).nr i) = i := by unfold syncObjOfId slaveId; omega
  have hnr : nrOfId (slaveId (c.s.node.rows tp).nr i) = (c.s.node.rows tp).nr := by rw [hid, hk1.1]; omega
  have hfm : fromMaster (slaveId (c.s.node.rows tp).nr i) = false := by rw [hid, hk1.2]
  unfold rxData at hs
  rw [hobj, hnr, hfm] at hs
  dsimp only at hs
  rw [if_neg (c := env.chk = true ∧ (c.s.node.rows tp).nr ≠ (c.s.node.rows tp).nr) (fun e => e.2 rfl)] at hs
  simp only [Bool.false_eq_true, if_false] at hs
  rw [← hs]
  rcases h.sw tp trivial with ⟨s1, s2, s3⟩ | ⟨s1, s2, s3⟩
  · refine ⟨.inl s1, ?_, fun _ hr => (s3 i hr).1⟩
    by_cases hd : env.chk = true ∧ dlc ≠ (c.s.node.rows tp).rxDlcSync i
    · rw [if_pos hd, if_neg (fun e => hd.2 (e.2 hd.1))]
    · rw [if_neg hd, if_pos ⟨by omega, fun e => Classical.not_not.1 fun x => hd ⟨e, x⟩⟩]
      simp only [s2 i hi, hk]
      rfl
  · refine ⟨.inr s1, ?_, fun e => absurd s1 e⟩
    rw [if_neg (c := (c.s.node.rows tp).txObjSync ≠ 0 ∧ (env.chk = true → dlc = (c.s.node.rows tp).rxDlcSync i)) (fun e => e.1 s1)]
    by_cases hd : env.chk = true ∧ dlc ≠ (c.s.node.rows tp).rxDlcSync i
    · rw [if_pos hd]
    · rw [if_neg hd]
      simp only [s2 i hi]
      rfl

/-- **C121**: a message of the main CPU.  While the module is switched on and its length passes the check, the
conversion registered for the monitor CPU converts it into transmit object `i` of that module; nothing else of the CPU
changes.  Otherwise nothing changes.  `_partial`: the length is compared with the one of *receive* object `i`, not with
the one the main CPU sends; see the counterexample. -/
theorem C121_main_cpu_frames_partial (env : Env) (hh : ∀ k, env.hwOk k = true) (h10 : 10 < env.nObj) (hn : env.nObj ≤ 32)
    (h8 : env.maxMod ≤ 8) (c c' : Cpu2) (hc : MonLife env c) (hnum : Numbered env c.s.node) (tp i now obj dlc : Nat) (data : List Byte)
    (hi : i < (c.s.node.rows tp).txObj) (k : Nat) (hk : (c.x tp).conv i = .app k)
    (ht : Takes env c.s.node obj (slaveId (c.s.node.rows tp).nr i))
    (hs : step env c (.api (.frame now obj dlc (slaveId (c.s.node.rows tp).nr i) data)) = some c') :
    ((c.s.node.rows tp).txObjSync = (c.s.node.rows tp).txObj ∨ (c.s.node.rows tp).txObjSync = 0) ∧
    c' = (if (c.s.node.rows tp).txObjSync ≠ 0 ∧ (env.chk = true → dlc = (c.s.node.rows tp).rxDlcSync i) then
      { c with s := { c.s with node := { c.s.node with
          mem := upd c.s.node.mem ((c.s.node.rows tp).tx i) (env.rxConv k data dlc (c.s.node.mem ((c.s.node.rows tp).tx i))).1 } } }
      else c) ∧
    ((c.s.node.rows tp).txObjSync ≠ 0 → i < (c.s.node.rows tp).rxObj →
      (c.s.node.rows tp).rxDlcSync i = (c.s.node.rows tp).rxDlc i) :=
  main_frame hn (hc.rig hh h10 hn h8) hnum hi hk ht hs

/-- **C121**: a message of the master goes to receive object `i` of its module, is converted by the module's receive
conversion, and counts for the process image. -/
theorem C121_master_frames (env : Env) (hh : ∀ k, env.hwOk k = true) (h10 : 10 < env.nObj) (hn : env.nObj ≤ 32)
    (h8 : env.maxMod ≤ 8) (c c' : Cpu2) (hc : MonLife env c) (hnum : Numbered env c.s.node) (tp i now obj dlc : Nat) (data : List Byte)
    (hi : i < (c.s.node.rows tp).rxObj) (ht : Takes env c.s.node obj (masterId (c.s.node.rows tp).nr i))
    (hs : step env c (.api (.frame now obj dlc (masterId (c.s.node.rows tp).nr i) data)) = some c') :
    (∀ t j, c'.s.sync.cnt t j = if t = tp ∧ j = i ∧ (env.chk = true → dlc = (c.s.node.rows tp).rxDlcSync i) then
      (c.s.sync.cnt t j + 1) % 65536 else c.s.sync.cnt t j) ∧
    (∀ p, p ≠ (c.s.node.rows tp).rx i → c'.s.node.mem p = c.s.node.mem p) ∧
    (∀ k, (c.s.node.rows tp).rxMainSync i = .app k → c'.s.node.mem ((c.s.node.rows tp).rx i) =
      if env.chk = true → dlc = (c.s.node.rows tp).rxDlcSync i then
        (env.rxConv k data dlc (c.s.node.mem ((c.s.node.rows tp).rx i))).1 else c.s.node.mem ((c.s.node.rows tp).rx i)) ∧
    (((c.s.node.rows tp).rxDlcSync i = (c.s.node.rows tp).rxDlc i ∧ (c.s.node.rows tp).rxMainSync i = (c.s.node.rows tp).rxMain i) ∨
      ((c.s.node.rows tp).txObjSync = 0 ∧ (c.s.node.rows tp).rxDlcSync i = 0 ∧ (c.s.node.rows tp).rxMainSync i = .dummy)) := by
  have h := hc.rig hh h10 hn h8
  have e := (takes_iff h hnum false hi obj).1 ht
  subst e
  have htp : tp < env.maxMod := by
    rcases Nat.lt_or_ge tp env.maxMod with e | e
    · exact e
    · have := h.free tp (h.big tp e); omega
  have nrs := hnum tp htp (by omega)
  have i4 : i < 4 := by have := (h.max tp).2; omega
  have hs : c.handlerRx env now (obs c false tp i) dlc _ data = some c' := hs
  rw [handlerRx_data hn h false hi] at hs
  have hs := Option.some.inj hs
  have hk1 := nrOfId_rx (4 * ((c.s.node.rows tp).nr - 1) + i) (by omega)
  have hid : masterId (c.s.node.rows tp).nr i = 0x200 + (4 * ((c.s.node.rows tp).nr - 1) + i) := by unfold masterId; omega
  have hobj : syncObjOfId (masterId (c.s.node.rows tp).nr i) = i := by unfold syncObjOfId masterId; omega
  have hnr : nrOfId (masterId (c.s.node.rows tp).nr i) = (c.s.node.rows tp).nr := by rw [hid, hk1.1]; omega
  have hfm : fromMaster (masterId (c.s.node.rows tp).nr i) = true := by rw [hid, hk1.2]
  unfold rxData at hs
  rw [hobj, hnr, hfm] at hs
  dsimp only at hs
  rw [if_neg (c := env.chk = true ∧ (c.s.node.rows tp).nr ≠ (c.s.node.rows tp).nr) (fun e => e.2 rfl)] at hs
  have last : ((c.s.node.rows tp).rxDlcSync i = (c.s.node.rows tp).rxDlc i ∧ (c.s.node.rows tp).rxMainSync i = (c.s.node.rows tp).rxMain i) ∨
      ((c.s.node.rows tp).txObjSync = 0 ∧ (c.s.node.rows tp).rxDlcSync i = 0 ∧ (c.s.node.rows tp).rxMainSync i = .dummy) := by
    rcases h.sw tp trivial with ⟨s1, s2, s3⟩ | ⟨s1, s2, s3⟩
    · exact .inl (s3 i hi)
    · exact .inr ⟨s1, s3 i hi⟩
  by_cases hd : env.chk = true ∧ dlc ≠ (c.s.node.rows tp).rxDlcSync i
  · rw [if_pos hd] at hs
    subst hs
    refine ⟨fun t j => ?_, fun _ _ => rfl, fun k hk => ?_, last⟩
    · rw [if_neg (fun e => hd.2 (e.2.2 hd.1))]
    · rw [if_neg (fun e => hd.2 (e hd.1))]
  · have hd' : env.chk = true → dlc = (c.s.node.rows tp).rxDlcSync i := fun e => Classical.not_not.1 fun x => hd ⟨e, x⟩
    rw [if_neg hd] at hs
    simp only [if_true] at hs
    subst hs
    refine ⟨fun t j => ?_, fun p hp => ?_, fun k hk => ?_, last⟩
    · show upd c.s.sync.cnt tp _ t j = _
      by_cases et : t = tp
      · subst et
        rw [upd_same]
        by_cases ej : j = i
        · subst ej; rw [upd_same, if_pos ⟨rfl, rfl, hd'⟩, u16]
        · rw [upd_other _ _ ej, if_neg (fun e => ej e.2.1)]
      · rw [upd_other _ _ et, if_neg (fun e => et e.1)]
    · show (Node.callRx ..).1.mem p = _
      unfold Node.callRx
      split
      · rfl
      · rfl
      · exact upd_other _ _ hp
    · show (Node.callRx ..).1.mem _ = _
      rw [hk, if_pos hd']
      exact upd_same ..

/-! ## Examples -/

/-- two modules, the second gets number 7 -/
def exMirror : List CIn :=
  [exAdd 65 2 2 5, .add (exTpl 66 1 1) exTwo 9 (fun j => 120 + j) (fun j => 130 + j), .start, .api (.frame 40 2 8 0x022 [0x20, 0, 7, 0, 0, 0, 0, 0])]

/-- a check of `Fine` by evaluation -/
def fineB (env : Env) : Cpu2 → List CIn → Bool
  | _, [] => true
  | c, i :: is => (match i with
      | .api (.init _) => false
      | .api (.table (.add _ _ _ _)) => false
      | .api (.table (.changeNr _ nr _)) => 1 ≤ nr ∧ nr ≤ 256
      | .api (.table (.changeModuleNr _ nr)) => 1 ≤ nr ∧ nr ≤ 256
      | .api (.table (.changeTypeAdd _ _ _ _ _)) => false
      | .api (.frame _ _ _ _ data) => data.getD 0 0 = 0x20 → data.getD 2 0 ≠ 0
      | .add tpl _ _ _ _ => tpl.typ ≠ [] ∧ tpl.txObj ≤ 4 ∧ tpl.rxObj ≤ 4
      | _ => true) && regErr env c i == E.ok && (match step env c i with
        | some c' => fineB env c' is
        | none => true)

theorem fineB_fine (env : Env) : ∀ (is : List CIn) (c : Cpu2), fineB env c is = true → Fine env c is
  | [], _, _ => trivial
  | i :: is, c, h => by
    simp only [fineB, Bool.and_eq_true, beq_iff_eq] at h
    obtain ⟨⟨h1, h2⟩, h3⟩ := h
    refine ⟨?_, h2, fun c' hc => ?_⟩
    · unfold plainIn
      split at h1 <;> simp_all
      exact fun e => h1.resolve_left fun n => n e
    · rw [hc] at h3; exact fineB_fine env is c' h3

def exStart : Cpu2 := (step exEnv (boot exMem) (.api (.init 250))).getD (boot exMem)

theorem exMonLife (is : List CIn) (c : Cpu2) (hf : fineB exEnv exStart is = true) (hr : run exEnv exStart is = some c) :
    MonLife exEnv c := ⟨exMem, 250, is, exStart, rfl, fineB_fine _ _ _ hf, hr⟩

/-- C121: the hypotheses hold after the number change, and a frame of the main CPU for the second module is mirrored -/
example : ∃ c c', MonLife exEnv c ∧ Numbered exEnv c.s.node ∧ (c.s.node.rows 1).nr = 7 ∧ 0 < (c.s.node.rows 1).txObj ∧
    (c.x 1).conv 0 = .app 0 ∧ (c.s.node.rows 1).txObjSync ≠ 0 ∧ slaveId 7 0 = 0x418 ∧ Takes exEnv c.s.node 9 (slaveId 7 0) ∧
    step exEnv c (.api (.frame 90 9 2 (slaveId 7 0) [0xAB, 0xCD, 0, 0, 0, 0, 0, 0])) = some c' ∧ c'.s.node.mem 130 = [0xAB, 0xCD] := by
  have h1 : (run exEnv exStart exMirror).isSome = true := by decide +kernel
  obtain ⟨c, hc⟩ := Option.isSome_iff_exists.1 h1
  have h2 : (run exEnv exStart (exMirror ++ [.api (.frame 90 9 2 (slaveId 7 0) [0xAB, 0xCD, 0, 0, 0, 0, 0, 0])])).map (fun c => c.s.node.mem 130) =
    some [0xAB, 0xCD] := by decide +kernel
  have app : ∀ (xs : List CIn) (c0 : Cpu2) (i : CIn), run exEnv c0 (xs ++ [i]) = (run exEnv c0 xs).bind fun c => step exEnv c i := by
    intro xs
    induction xs with
    | nil => intro c0 i; simp only [List.nil_append, run, Option.bind_some]; cases step exEnv c0 i <;> rfl
    | cons x xs ih => intro c0 i; simp only [List.cons_append, run]; cases step exEnv c0 x <;> simp [ih]
  have get : ∀ {α : Type} (f : Cpu2 → α) (v : α), (run exEnv exStart exMirror).map f = some v → f c = v := by
    intro α f v h; rw [hc] at h; exact Option.some.inj h
  rw [app, hc, Option.bind_some] at h2
  rcases hs : step exEnv c (.api (.frame 90 9 2 (slaveId 7 0) [0xAB, 0xCD, 0, 0, 0, 0, 0, 0])) with _ | c'
  · rw [hs] at h2; cases h2
  · rw [hs] at h2
    refine ⟨c, c', exMonLife exMirror c (by decide +kernel) hc, ?_, get (fun c => (c.s.node.rows 1).nr) 7 (by decide +kernel), ?_, ?_, ?_, rfl, ?_, hs,
      Option.some.inj h2⟩
    · have := get (fun c => decide (∀ t < exEnv.maxMod, 0 < (c.s.node.rows t).txObj + (c.s.node.rows t).rxObj →
        1 ≤ (c.s.node.rows t).nr ∧ (c.s.node.rows t).nr ≤ 128 ∧ ∀ t' < exEnv.maxMod, 0 < (c.s.node.rows t').txObj + (c.s.node.rows t').rxObj →
          (c.s.node.rows t').nr = (c.s.node.rows t).nr → t' = t)) true (by decide +kernel)
      unfold Numbered
      exact of_decide_eq_true this
    · rw [get (fun c => (c.s.node.rows 1).txObj) 1 (by decide +kernel)]; decide
    · exact get (fun c => (c.x 1).conv 0) (.app 0) rfl
    · rw [get (fun c => (c.s.node.rows 1).txObjSync) 1 (by decide +kernel)]; decide
    · refine ⟨by decide, ?_⟩
      have := get (fun c => match c.s.node.hw.defs 9 with
        | some d => hwAccepts (BitVec.ofNat 16 d.id) d.mask (BitVec.ofNat 16 (slaveId 7 0))
        | none => false) true (by decide +kernel)
      split at this
      · next d hd => exact ⟨d, hd, this⟩
      · cases this

/-- the length of received data is checked -/
def exChk : Env := { exEnv with chk := true }

/-- **C121**, counterexample to "every message of the main CPU is mirrored": with
`LI_CAN_SLV_SYNC_CHECK_MODULE_NR_AND_DLC` a module without receive objects is never mirrored, although the module is switched
on and the message has the identifier and length the main CPU sends. -/
theorem C121_counterexample_transmit_only :
    (run exChk (boot exMem) [.api (.init 250), exAdd 65 0 2 5, .start, .api (.frame 90 1 2 (slaveId 5 0) [0xAB, 0xCD, 0, 0, 0, 0, 0, 0])]).map
      (fun c => (c.s.node.errq.getCount, (c.s.node.rows 0).txObjSync, (c.s.node.rows 0).txDlc 0, decide ((c.x 0).obj 0 = 1),
        c.s.node.mem ((c.s.node.rows 0).tx 0) == exMem 110)) = some (0, 2, 2, true, true) ∧
    (run exChk (boot exMem) [.api (.init 250), exAdd 65 1 2 5, .start, .api (.frame 90 1 2 (slaveId 5 0) [0xAB, 0xCD, 0, 0, 0, 0, 0, 0])]).map
      (fun c => c.s.node.mem ((c.s.node.rows 0).tx 0)) = some [0xAB, 0xCD] := by
  decide +kernel

end Cpu2
end LiCan
