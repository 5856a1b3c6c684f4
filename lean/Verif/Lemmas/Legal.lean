import Verif.Lemmas.SlaveGood
import Verif.Lemmas.SlaveEff
import Verif.Spec.Driver
/-! # Frames of the module table and the slave are legal -/
namespace LiCan
open Spec
namespace Node

/-- a module number for which all identifiers are legal -/
def NrOk (nr : Nat) : Prop := 1 ≤ nr ∧ nr ≤ 128

instance (nr : Nat) : Decidable (NrOk nr) := by unfold NrOk; infer_instance

/-- What the application provides: conversions write inside the eight byte buffer, changes of numbers are voted
on, and the build has at most four modules. -/
structure EnvL (env : Env) : Prop where
  m4 : env.maxMod ≤ 4
  garb : env.garbage.length = 8
  conv : ∀ k app d buf, buf.length = 8 → (env.txConv k app d buf).1.length = 8
  vote : ∃ v, env.voter = some v ∧ ∀ t nr act, v t nr act = .valid ∨ v t nr act = .validButSilent → NrOk nr

/-- the table part -/
structure StatL (env : Env) (n : Node) : Prop where
  nr : ∀ i < env.maxMod, NrOk (n.rows i).nr
  txd : ∀ i j, (n.rows i).txDlc j ≤ 8
  chg : ∀ i c, n.chg i = some c → ∀ j, c.row.txDlc j ≤ 8
  tid : ∀ i j, n.tx.id i j < 2048
  tdl : ∀ i j, n.tx.dlc i j ≤ 8

/-- the frames handed over -/
def LogL (n : Node) : Prop := ∀ f ok, Ev.frame f ok ∈ n.log → Legal f

def NodeL (env : Env) (n : Node) : Prop := StatL env n ∧ LogL n

variable {env : Env}

theorem StatL.light {n n' : Node} (h : StatL env n) (l : Light n n') : StatL env n' :=
  ⟨by rw [l.rows]; exact h.nr, by rw [l.rows]; exact h.txd, by rw [l.chg]; exact h.chg, by rw [l.tx]; exact h.tid, by rw [l.tx]; exact h.tdl⟩

/-- nothing of this changed -/
theorem NodeL.congr {n n' : Node} (h : NodeL env n) (h1 : ∀ i, (n'.rows i).nr = (n.rows i).nr ∧ (n'.rows i).txDlc = (n.rows i).txDlc)
    (h2 : n'.chg = n.chg) (h3 : n'.tx.id = n.tx.id) (h4 : n'.tx.dlc = n.tx.dlc) (h5 : n'.log = n.log) : NodeL env n' :=
  ⟨⟨fun i hi => by rw [(h1 i).1]; exact h.1.nr i hi, fun i => by rw [(h1 i).2]; exact h.1.txd i, by rw [h2]; exact h.1.chg,
    by rw [h3]; exact h.1.tid, by rw [h4]; exact h.1.tdl⟩, by unfold LogL; rw [h5]; exact h.2⟩

theorem LogL.cons {n n' : Node} {e : Ev} (h : LogL n) (hl : n'.log = e :: n.log) (he : ∀ f ok, e = .frame f ok → Legal f) : LogL n' := by
  intro f ok hm
  rw [hl] at hm
  rcases List.mem_cons.1 hm with hm | hm
  · exact he f ok hm.symm
  · exact h f ok hm

theorem NodeL.log1 {n : Node} (h : NodeL env n) (e : Ev) (he : ∀ f ok, e = .frame f ok → Legal f) :
    NodeL env { n with log := e :: n.log } :=
  ⟨⟨h.1.nr, h.1.txd, h.1.chg, h.1.tid, h.1.tdl⟩, h.2.cons rfl he⟩

theorem NodeL.setRow {n : Node} (h : NodeL env n) (tp : Nat) (g : Row → Row) (h1 : ∀ r, (g r).nr = r.nr) (h2 : ∀ r, (g r).txDlc = r.txDlc) :
    NodeL env (n.setRow tp g) := by
  refine h.congr (fun i => ?_) rfl rfl rfl rfl
  unfold Node.setRow upd
  dsimp only
  split
  · next e => rw [e]; exact ⟨h1 _, h2 _⟩
  · exact ⟨rfl, rfl⟩

theorem NodeL.define {n : Node} (h : NodeL env n) (o : Nat) (d : ObjDef) : NodeL env (n.define env o d).1 := by
  unfold Node.define
  split
  · exact h.congr (fun _ => ⟨rfl, rfl⟩) rfl rfl rfl rfl
  · simp only
    split <;> exact h.congr (fun _ => ⟨rfl, rfl⟩) rfl rfl rfl rfl

theorem NodeL.report {n : Node} (h : NodeL env n) (e : Err) : NodeL env (n.report env e) := by
  unfold Node.report
  split
  · exact h.congr (fun _ => ⟨rfl, rfl⟩) rfl rfl rfl rfl
  · exact h

theorem NodeL.addSlot {n : Node} (h : NodeL env n) (o tp : Nat) : NodeL env (n.addSlot env o tp).1 := by
  unfold Node.addSlot
  split
  · exact h.congr (fun _ => ⟨rfl, rfl⟩) rfl rfl rfl rfl
  · exact h

theorem NodeL.syncOn {n : Node} (h : NodeL env n) (tp : Nat) : NodeL env (n.syncOn tp) := by
  rw [syncOn_eq]
  refine h.congr (fun i => ?_) rfl rfl rfl rfl
  unfold upd
  dsimp only
  split
  · next e => rw [e]; exact ⟨rfl, rfl⟩
  · exact ⟨rfl, rfl⟩

theorem NodeL.syncOff {n : Node} (h : NodeL env n) (tp : Nat) : NodeL env (n.syncOff env tp) := by
  obtain ⟨m, u, e⟩ := syncOff_eq env n tp
  rw [e]
  refine h.congr (fun i => ?_) rfl rfl rfl rfl
  unfold upd
  dsimp only
  split
  · next e => rw [e]; exact ⟨rfl, rfl⟩
  · exact ⟨rfl, rfl⟩

theorem NodeL.silentAwake {n : Node} (h : NodeL env n) (tp st : Nat) : NodeL env (n.setSilentAwake env tp st).1 := by
  unfold Node.setSilentAwake
  have h1 : NodeL env { n with silent := upd n.silent tp st, log := .silentCb tp (n.rows tp).nr st :: n.log } :=
    ⟨⟨h.1.nr, h.1.txd, h.1.chg, h.1.tid, h.1.tdl⟩, h.2.cons rfl (fun f ok e => by cases e)⟩
  split
  · simp only
    split
    · exact h1.syncOff tp
    · split
      · exact h1.syncOn tp
      · exact h1
  · exact h

theorem NodeL.then {r : Node × Err} {f : Node → Node × Err} (h : NodeL env r.1) (hf : ∀ n, NodeL env n → NodeL env (f n).1) :
    NodeL env (thenOk r f).1 := by
  unfold thenOk
  split
  · exact hf _ h
  · exact h

theorem NodeL.forErr {f : Nat → Node → Node × Err} (hf : ∀ i n, NodeL env n → NodeL env (f i n).1) (is : List Nat) :
    ∀ {n : Node}, NodeL env n → NodeL env (Node.forErr f is n).1 := by
  induction is with
  | nil => exact fun h => h
  | cons i is ih => exact fun h => (hf i _ h).then fun _ => ih

theorem NodeL.txCnfg {n : Node} (h : NodeL env n) (tp obj nr : Nat) (hn : NrOk nr) : NodeL env (n.txCnfg env tp obj nr).1 := by
  unfold Node.txCnfg
  split
  · exact h
  split
  · exact h
  refine ⟨⟨h.1.nr, h.1.txd, h.1.chg, ?_, ?_⟩, h.2⟩
  · intro i j
    simp only [upd]
    split
    · simp only [upd]
      split
      · unfold syncTxId idOf; obtain ⟨a, b⟩ := hn; omega
      · exact h.1.tid _ _
    · exact h.1.tid _ _
  · intro i j
    simp only [upd]
    split
    · simp only [upd]
      split
      · exact h.1.txd _ _
      · exact h.1.tdl _ _
    · exact h.1.tdl _ _

theorem NodeL.defineCtrl {n : Node} (h : NodeL env n) (idx nr : Nat) : NodeL env (n.defineCtrl env idx nr).1 := by
  unfold Node.defineCtrl
  split
  · exact h
  split
  · exact h
  · refine NodeL.define ?_ _ _
    exact h.congr (fun _ => ⟨rfl, rfl⟩) rfl rfl rfl rfl

theorem NodeL.finish {n : Node} (h : NodeL env n) (tp idx nr : Nat) (nrs : List Nat) : NodeL env (n.finish env tp idx nr nrs).1 := by
  unfold Node.finish
  simp only
  refine .then (.then (.then (.then (h.defineCtrl idx nr) ?_) ?_) ?_) ?_
  · exact fun _ h => h.define _ _
  · exact fun _ h => h.define _ _
  · intro n h
    split
    · exact h.define _ _
    · exact h
  · exact fun _ h => h.silentAwake _ _

theorem effNr_ok {tp nr : Nat} (h : tp < 4) : NrOk (effNr tp nr) := by
  unfold effNr NrOk u16
  split <;> omega

theorem NodeL.fillRow {n : Node} (h : NodeL env n) (tp : Nat) (tpl : Row) (nr : Nat) (rx tx : Nat → Nat) (hn : NrOk nr)
    (ht : ∀ j, tpl.txDlc j ≤ 8) : NodeL env (n.fillRow tp tpl nr rx tx) := by
  refine ⟨⟨?_, ?_, h.1.chg, h.1.tid, h.1.tdl⟩, h.2⟩
  · intro i hi
    simp only [Node.fillRow, Node.setRow, upd]
    split
    · exact hn
    · exact h.1.nr i hi
  · intro i j
    simp only [Node.fillRow, Node.setRow, upd]
    split
    · exact ht j
    · exact h.1.txd i j

theorem NodeL.setRx1 {n : Node} (h : NodeL env n) (tp nr i : Nat) : NodeL env (setRx1 env tp nr i n).1 := by
  unfold Node.setRx1
  simp only
  have h1 := h.setRow tp (fun r => { r with rxDlcSync := upd r.rxDlcSync i (r.rxDlc i) }) (fun _ => rfl) (fun _ => rfl)
  generalize n.setRow tp (fun r => { r with rxDlcSync := upd r.rxDlcSync i (r.rxDlc i) }) = n1 at *
  cases n1.nextFree env with
  | none => exact h1
  | some o =>
    refine .then (.define ?_ _ _) fun _ h => h.addSlot _ _
    exact h1.setRow tp (fun r => { r with rxMsgObj := upd r.rxMsgObj i o }) (fun _ => rfl) (fun _ => rfl)

theorem NodeL.setModule {n : Node} (h : NodeL env n) (he : EnvL env) (tp : Nat) (tpl : Row) (nr : Nat) (rx tx : Nat → Nat) (htp : tp < env.maxMod)
    (ht : ∀ j, tpl.txDlc j ≤ 8) : NodeL env (n.setModule env tp tpl nr rx tx).1 := by
  unfold Node.setModule
  simp only
  have hn : NrOk (effNr tp nr) := effNr_ok (by have := he.m4; omega)
  generalize effNr tp nr = nr at *
  refine .then ?_ fun n h => .then ?_ fun n h => ?_
  · unfold Node.setTx
    refine .forErr (fun i n h => NodeL.txCnfg ?_ _ _ _ hn) _ (h.fillRow tp tpl nr rx tx hn ht)
    exact h.setRow tp (fun r => { r with txDlcSync := upd r.txDlcSync i (r.txDlc i) }) (fun _ => rfl) (fun _ => rfl)
  · unfold Node.setRx
    simp only
    refine .forErr (fun i n h => h.setRx1 tp nr i) _ ?_
    exact NodeL.setRow h tp _ (fun _ => rfl) (fun _ => rfl)
  · have := h.finish tp n.nrMod nr ((List.range (tp + 1)).map fun i => (n.rows i).nr)
    generalize Node.finish env n tp n.nrMod nr ((List.range (tp + 1)).map fun i => (n.rows i).nr) = r at *
    exact NodeL.congr this (fun _ => ⟨rfl, rfl⟩) rfl rfl rfl rfl

theorem find_lt {p : Nat → Bool} {m i : Nat} (h : (List.range m).find? p = some i) : i < m := by
  simpa using List.mem_of_find?_eq_some h

theorem NodeL.addModule {n : Node} (h : NodeL env n) (he : EnvL env) (tpl : Row) (nr : Nat) (rx tx : Nat → Nat)
    (ht : ∀ j, tpl.txDlc j ≤ 8) : NodeL env (n.addModule env tpl nr rx tx).1 := by
  unfold Node.addModule
  split
  · exact h
  · next i hi =>
    have := find_lt hi
    split <;> exact (h.setModule he _ _ _ _ _ this ht).report _

theorem NodeL.changeNr {n : Node} (h : NodeL env n) (typ : List Byte) (nr act : Nat) (hn : NrOk nr) :
    NodeL env (n.changeNr env typ nr act).1 := by
  unfold Node.changeNr
  split
  · exact h.congr (fun _ => ⟨rfl, rfl⟩) rfl rfl rfl rfl
  · next tp _ =>
    have h1 : NodeL env (n.setRow tp fun r => { r with nr := nr }) := by
      refine ⟨⟨?_, ?_, h.1.chg, h.1.tid, h.1.tdl⟩, h.2⟩
      · intro i hi
        simp only [Node.setRow, upd]
        split
        · exact hn
        · exact h.1.nr i hi
      · intro i j
        simp only [Node.setRow, upd]
        split
        · exact h.1.txd tp j
        · exact h.1.txd i j
    simp only
    refine .then ?_ fun n h => .then ?_ fun n h => ?_
    · unfold Node.renumTx
      exact .forErr (fun i n h => h.txCnfg _ _ _ hn) _ h1
    · unfold Node.renumRx
      exact .forErr (fun i n h => h.define _ _) _ h
    · exact h.finish _ _ _ _

theorem NodeL.changeModuleNr {n : Node} (h : NodeL env n) (he : EnvL env) (tp nr : Nat) : NodeL env (n.changeModuleNr env tp nr).1 := by
  obtain ⟨v, hv, hok⟩ := he.vote
  unfold Node.changeModuleNr
  simp only [hv]
  have := hok (n.rows tp).typ nr (n.rows tp).nr
  cases hx : v (n.rows tp).typ nr (n.rows tp).nr with
  | valid => exact (h.changeNr _ _ _ (this (.inl hx))).then fun _ h => h.silentAwake _ _
  | validButSilent => exact (h.changeNr _ _ _ (this (.inr hx))).then fun _ h => h.silentAwake _ _
  | _ => exact h

theorem NodeL.changeTypeAdd {n : Node} (h : NodeL env n) (typ : List Byte) (tpl : Row) (rx tx : Nat → Nat) (cb : Bool)
    (ht : ∀ j, tpl.txDlc j ≤ 8) : NodeL env (n.changeTypeAdd env typ tpl rx tx cb).1 := by
  unfold Node.changeTypeAdd
  split
  · refine ⟨⟨h.1.nr, h.1.txd, ?_, h.1.tid, h.1.tdl⟩, h.2⟩
    intro i c hc
    simp only [upd] at hc
    split at hc
    · injection hc with hc; subst hc; exact ht
    · exact h.1.chg i c hc
  · exact h

theorem NodeL.retx (js : List Nat) : ∀ {r : Node × Err}, NodeL env r.1 → NodeL env (Node.retx env js r).1 := by
  have inner : ∀ (j : Nat) (is : List Nat) (r : Node × Err), NodeL env r.1 →
      NodeL env (is.foldl (fun r i => Node.txCnfg env r.1 j i (r.1.rows j).nr) r).1 := by
    intro j is
    induction is with
    | nil => exact fun r h => h
    | cons i is ih =>
      intro r h
      refine ih _ ?_
      by_cases hj : j < env.maxMod
      · exact h.txCnfg _ _ _ (h.1.nr j hj)
      · show NodeL env (Node.txCnfg env r.1 j i _).1
        unfold Node.txCnfg; rw [if_pos (by omega)]; exact h
  induction js with
  | nil => exact fun h => h
  | cons j js ih =>
    intro r h
    unfold Node.retx
    split
    · exact ih (inner j _ r h)
    · exact ih h

theorem NodeL.changeType {n : Node} (h : NodeL env n) (tp : Nat) (typ : List Byte) : NodeL env (n.changeType env tp typ).1 := by
  unfold Node.changeType
  split
  · exact h
  · next c hc =>
    split
    · have h1 : ∀ g : Row → Row, (∀ r, (g r).nr = r.nr) → (∀ r, (g r).txDlc = c.row.txDlc) →
          NodeL env { (n.setRow tp g) with tx := { n.tx with reg := 0, last := 0 } } := by
        intro g g1 g2
        refine ⟨⟨?_, ?_, h.1.chg, h.1.tid, h.1.tdl⟩, h.2⟩
        · intro i hi
          simp only [Node.setRow, upd]
          split
          · next e => rw [g1, ← e]; exact h.1.nr i hi
          · exact h.1.nr i hi
        · intro i j
          simp only [Node.setRow, upd]
          split
          · rw [g2]; exact h.1.chg tp c hc j
          · exact h.1.txd i j
      have h2 : ∀ g : Row → Row, (∀ r, (g r).nr = r.nr) → (∀ r, (g r).txDlc = c.row.txDlc) → NodeL env
          (Node.retx env (List.range n.nrMod) ({ (n.setRow tp g) with tx := { n.tx with reg := 0, last := 0 } }, E.ok)).1 :=
        fun g g1 g2 => NodeL.retx _ (h1 g g1 g2)
      simp only
      split
      · refine NodeL.log1 (h2 _ ?_ ?_) _ (fun f ok e => by cases e) <;> exact fun _ => rfl
      · refine h2 _ ?_ ?_ <;> exact fun _ => rfl
    · exact h

theorem NodeL.init {n : Node} (h : NodeL env n) : NodeL env (n.init env).1 := by
  unfold Node.init
  simp only
  have h1 : NodeL env { n with
    nrMod := 0
    rows := fun i => if i < env.maxMod then { n.rows i with typ := [] } else n.rows i
    hw := { n.hw with
      used := fun i => if i < env.nObj then false else n.hw.used i
      defs := fun i => if i < env.nObj then none else n.hw.defs i } } := by
    refine h.congr (fun i => ?_) rfl rfl rfl rfl
    dsimp only
    split <;> exact ⟨rfl, rfl⟩
  refine .then (.then (.then (.then (h1.define _ _) ?_) ?_) ?_) ?_
  · exact fun _ h => h.define _ _
  · intro n h
    split
    · exact h.define _ _
    · exact h
  · exact fun _ h => h.define _ _
  · exact fun _ h => h.define _ _

/-! ## Transmission -/

theorem callTx_len (he : EnvL env) (c : Conv) (app : List Byte) (d : Nat) (buf : List Byte) (hb : buf.length = 8) :
    (callTx env c app d buf).1.length = 8 := by
  unfold callTx
  split
  · exact he.conv _ _ _ _ hb
  · exact hb

theorem sendOne_legal (he : EnvL env) {n : Node} (h : NodeL env n) (tp obj : Nat) (buf : List Byte) (hb : buf.length = 8) :
    NodeL env (sendOne env n tp obj buf).1 ∧ (sendOne env n tp obj buf).2.length = 8 := by
  unfold sendOne
  simp only
  split
  · exact ⟨h.congr (fun _ => ⟨rfl, rfl⟩) rfl rfl rfl rfl, hb⟩
  · have hl := callTx_len he ((n.rows tp).txMainSync obj) (n.mem ((n.rows tp).tx obj)) ((n.rows tp).txDlc obj) buf hb
    generalize callTx env ((n.rows tp).txMainSync obj) (n.mem ((n.rows tp).tx obj)) ((n.rows tp).txDlc obj) buf = r at *
    split
    · refine ⟨NodeL.report ⟨h.1.light (.send ..), h.2.cons rfl ?_⟩ _, hl⟩
      intro f ok e
      injection e with e _
      subst e
      refine ⟨h.1.tid _ _, h.1.tdl _ _, ?_⟩
      have := h.1.tdl tp obj
      simp only [List.length_take]; omega
    · exact ⟨h.report _, hl⟩

theorem sendRun_legal (he : EnvL env) (k : Nat) : ∀ (s : SendSt), NodeL env s.node → s.buf.length = 8 → ∀ n', sendRun env k s = some n' →
    NodeL env n' := by
  induction k with
  | zero =>
    intro s h hb n' e
    simp only [sendRun] at e
    split at e
    · injection e with e; rw [← e]; exact h
    · cases e
  | succ k ih =>
    intro s h hb n' e
    simp only [sendRun] at e
    cases hs : sendStep env s with
    | none => rw [hs] at e; injection e with e; rw [← e]; exact h
    | some s1 =>
      rw [hs] at e
      replace e : sendRun env k s1 = some n' := e
      unfold sendStep at hs
      split at hs
      · cases hs
      split at hs
      · injection hs with hs; subst hs; exact ih _ (by exact h) (by exact hb) n' e
      split at hs
      · injection hs with hs; subst hs
        obtain ⟨a, b⟩ := sendOne_legal he h (s.cur / 4) (s.cur % 4) s.buf hb
        exact ih ⟨_, _, _, _⟩ a b n' e
      · injection hs with hs; subst hs; exact ih _ (by exact h) (by exact hb) n' e

theorem NodeL.process (he : EnvL env) {n n' : Node} (h : NodeL env n) (e : n.sendProcessData env = some n') : NodeL env n' :=
  sendRun_legal he 32 _ h he.garb n' e

/-- calls with legal templates and numbers -/
def OpL : Op → Prop
  | .add tpl .. => ∀ j, tpl.txDlc j ≤ 8
  | .changeTypeAdd _ tpl .. => ∀ j, tpl.txDlc j ≤ 8
  | .changeNr _ nr _ => NrOk nr
  | _ => True

theorem NodeL.step (he : EnvL env) {n : Node} (h : NodeL env n) (o : Op) (ho : OpL o) : NodeL env (n.step env o).1 := by
  cases o with
  | add tpl nr rx tx => exact h.addModule he tpl nr rx tx ho
  | silentAwake tp st => exact h.silentAwake tp st
  | silentAwakeBy typ nr st =>
    simp only [Node.step, Node.setSilentAwakeBy]
    split
    · exact h.silentAwake _ _
    · exact h
  | setActive typ =>
    simp only [Node.step, Node.setActive]
    split
    · exact h.syncOn _
    · exact h
  | setCritical typ =>
    simp only [Node.step, Node.setCritical]
    split
    · exact h.syncOff _
    · exact h
  | process =>
    simp only [Node.step]
    cases hx : sendProcessData env n with
    | none => exact h
    | some n' => exact h.process he hx
  | changeNr typ nr act => exact h.changeNr typ nr act ho
  | changeModuleNr tp nr => exact h.changeModuleNr he tp nr
  | changeTypeAdd typ tpl rx tx cb => exact h.changeTypeAdd typ tpl rx tx cb ho
  | changeType tp typ => exact h.changeType tp typ

end Node
namespace Slave
open Node
variable {env : Env}

/-- system messages are legal -/
def SysSent (env : Env) (n n' : Node) : Prop := Light n n' ∧ (StatL env n → LogL n → LogL n')

theorem SysSent.refl (n : Node) : SysSent env n n := ⟨.refl _, fun _ h => h⟩
theorem SysSent.trans {a b c : Node} (h : SysSent env a b) (g : SysSent env b c) : SysSent env a c :=
  ⟨h.1.trans g.1, fun s l => g.2 (s.light h.1) (h.2 s l)⟩
theorem SysSent.legal {n n' : Node} (h : SysSent env n n') (g : NodeL env n) : NodeL env n' := ⟨g.1.light h.1, h.2 g.1 g.2⟩

theorem SysSent.sendSys (n : Node) (nr : Nat) (d : List Byte) (hd : d.length = 8) : SysSent env n (n.sendSys env nr d).1 := by
  refine ⟨.sendSys .., fun s l => ?_⟩
  unfold Node.sendSys
  split
  · next tp ht =>
    split
    · refine l.cons rfl ?_
      intro f ok e
      injection e with e _
      subst e
      have h1 := find_lt ht
      have h2 : (n.rows tp).nr = nr := by simpa using List.find?_some ht
      obtain ⟨a, b⟩ := s.nr tp h1
      rw [h2] at a b
      exact ⟨by show sysTxId nr < 2048; unfold sysTxId idOf; omega, Nat.le_refl 8, hd⟩
    · exact l
  · exact l

theorem SysSent.sendOneError (n : Node) : SysSent env n (sendOneError env n).1 := by
  unfold Slave.sendOneError
  have hq : ∀ q, SysSent env n { n with errq := q } := fun q => ⟨⟨rfl, rfl, rfl, rfl, rfl, rfl, rfl, rfl⟩, fun _ h => h⟩
  split
  · split
    · next q _ _ _ _ =>
      refine (hq q).trans ?_
      unfold sendError
      exact .sendSys _ _ _ rfl
    · exact hq _
  · exact hq _

theorem drain_sysSent (k : Nat) : ∀ (r r' : Node × Err), drain env k r = some r' → SysSent env r.1 r'.1 := by
  induction k with
  | zero =>
    intro r r' h
    simp only [drain] at h
    split at h
    · injection h with h; rw [← h]; exact .refl _
    · cases h
  | succ k ih =>
    intro r r' h
    simp only [drain] at h
    split at h
    · injection h with h; rw [← h]; exact .refl _
    · exact (SysSent.sendOneError r.1).trans (ih _ _ h)

theorem statusBytes_len (typ : List Byte) (sn : Nat) : (statusBytes typ sn).length = 8 := by
  simp [statusBytes, type4]

theorem statusAckn_sysSent (s : Slave) (tp : Nat) : SysSent env s.node (statusAckn env s tp).1.node := by
  unfold statusAckn
  split
  · exact .refl _
  · split
    · exact .refl _
    · exact .sendSys _ _ _ (statusBytes_len ..)

theorem versionAckn_sysSent (s : Slave) (tp : Nat) : SysSent env s.node (versionAckn env s tp).1.node := by
  unfold versionAckn
  split
  · exact .refl _
  · split
    · exact .refl _
    · simp only
      split
      · exact .sendSys _ _ _ rfl
      · exact (SysSent.sendSys _ _ _ rfl).trans (.sendSys _ _ _ rfl)

theorem forRows_sysSent {f : Slave → Nat → Slave × Err} (hf : ∀ s i, SysSent env s.node (f s i).1.node) (is : List Nat) : ∀ s : Slave,
    SysSent env s.node (forRows f is s).1.node := by
  induction is with
  | nil => exact fun s => .refl _
  | cons i is ih =>
    intro s
    simp only [forRows]
    split
    · exact hf s i
    · exact (hf s i).trans (ih _)

/-- only events that are not frames were added -/
theorem SysSent.log {n n' : Node} (l : List Ev) (hl : n' = { n with log := l ++ n.log }) (hf : ∀ e ∈ l, ∀ f ok, e ≠ .frame f ok) :
    SysSent env n n' := by
  subst hl
  refine ⟨⟨rfl, rfl, rfl, rfl, rfl, rfl, rfl, rfl⟩, fun _ h f ok hm => ?_⟩
  rcases List.mem_append.1 hm with hm | hm
  · exact absurd rfl (hf _ hm f ok)
  · exact h f ok hm

theorem calls_noFrame (f : Option Nat) : ∀ e ∈ calls f, ∀ g ok, e ≠ .frame g ok := by
  intro e he g ok
  cases f with
  | none => simp [calls] at he
  | some k => simp [calls] at he; subst he; simp

theorem callOpt_sysSent (s : Slave) (f : Option Nat) : SysSent env s.node (s.callOpt f).node :=
  .log (calls f) (callOpt_node s f) (calls_noFrame f)

theorem statusRequest_sysSent (s : Slave) (dst : Option Nat) : SysSent env s.node (statusRequest env s dst).1.node := by
  rw [statusRequest_head]
  have h : SysSent env s.node (statusHead env s).node := by
    refine .log ((if env.randAck then [Ev.wait (rand s.sys.rand).2] else []) ++ (if s.sys.first then [] else calls s.sys.firstCb)) ?_ ?_
    · simp only [statusHead, List.append_assoc]
    · intro e he f ok
      rcases List.mem_append.1 he with he | he
      · split at he
        · rw [List.mem_singleton.1 he]; simp
        · cases he
      · split at he
        · cases he
        · exact calls_noFrame _ e he f ok
  cases dst with
  | none => exact h.trans (forRows_sysSent statusAckn_sysSent _ _)
  | some tp => exact h.trans (statusAckn_sysSent _ tp)

theorem sysMsg_legal (he : EnvL env) {s s' : Slave} {nr dlc : Nat} {src : List Byte} {e : Err} (hl : NodeL env s.node)
    (h : sysMsg env s nr dlc src = some (s', e)) : NodeL env s'.node := by
  have same : ∀ {r : Slave × Err}, some r = some (s', e) → NodeL env r.1.node → NodeL env s'.node := by
    intro r h g
    have := congrArg Prod.fst (Option.some.inj h)
    simp only at this
    rw [← this]; exact g
  have one : ∀ e : Ev, (∀ f ok, e ≠ .frame f ok) → NodeL env { s.node with log := e :: s.node.log } := by
    intro e he
    exact (SysSent.log [e] rfl (by intro x hx; rw [List.mem_singleton.1 hx]; exact he)).legal hl
  have hsa : ∀ st, NodeL env (sysSilentAwake env s src nr st).1.node := by
    intro st
    unfold sysSilentAwake
    split
    · split
      · split
        · exact hl.silentAwake _ _
        · exact hl
      · exact hl
    · exact hl
  unfold sysMsg at h
  split at h
  · exact same h hl
  simp only at h
  generalize (if nr = 1 then none else findNr env s.node nr) = dst at h
  split at h
  · exact same h hl
  split at h
  · exact same h hl
  split at h
  · have hr := (statusRequest_sysSent (env := env) s dst).legal hl
    generalize statusRequest env s dst = r at *
    split at h
    · exact same h hr
    split at h
    · simp only [Option.map_eq_some_iff] at h
      obtain ⟨x, hx, hx'⟩ := h
      have := congrArg Prod.fst hx'
      simp only at this
      rw [← this]
      exact (drain_sysSent _ _ _ hx).legal hr
    · exact same h hr
  · split at h
    · exact same h hl
    · exact same h hl
  · exact same h hl
  · split at h
    · exact same h ((forRows_sysSent versionAckn_sysSent _ _).legal hl)
    · exact same h ((versionAckn_sysSent _ _).legal hl)
  · split at h
    · exact same h (one _ (by simp))
    · exact same h hl
  · refine same h ?_
    unfold setCycle; split <;> exact hl
  · exact same h hl
  · exact same h hl
  · split at h
    · exact same h hl
    split at h
    · exact same h (hl.changeModuleNr he _ _)
    · exact same h hl
  · split at h
    · exact same h hl
    · exact same h (hsa 0)
  · split at h
    · exact same h hl
    · exact same h (hsa 1)
  · exact same h hl
  · split at h
    · exact same h (one _ (by simp))
    · exact same h hl
  · split at h
    · exact same h hl
    split at h
    · exact same h (hl.changeType _ _)
    · exact same h hl
  · exact same h hl

theorem reqRx_sysSent (s : Slave) : SysSent env s.node (reqRx s).node := by
  have fold : ∀ (is : List Nat) (s : Slave), SysSent env s.node (is.foldl (fun s i => s.callOpt (s.sync.reqCb i)) s).node := by
    intro is
    induction is with
    | nil => exact fun s => .refl _
    | cons i is ih => exact fun s => (callOpt_sysSent s _).trans (ih _)
  unfold reqRx
  simp only
  split
  · exact fold _ _
  · exact (callOpt_sysSent (env := env) { s with sync := { s.sync with first := true } } s.sync.firstCb).trans (fold _ _)

theorem checkStep_sysSent (now : Nat) (r : Slave × Bool) (i : Nat) : SysSent env r.1.node (checkStep now r i).1.node := by
  have h : (checkModule r.1 now i).1.node = r.1.node := by
    unfold checkModule; split <;> rfl
  unfold checkStep
  simp only
  generalize checkModule r.1 now i = c at *
  rw [← h]
  split
  · exact callOpt_sysSent { c.1 with sync := { c.1.sync with valid := upd c.1.sync.valid i false } } _
  · exact callOpt_sysSent { c.1 with sync := { c.1.sync with valid := upd c.1.sync.valid i true } } _

theorem checkImage_sysSent (s : Slave) (now : Nat) : SysSent env s.node (checkImage env s now).node := by
  have fold : ∀ (is : List Nat) (r : Slave × Bool), SysSent env r.1.node (is.foldl (checkStep now) r).1.node := by
    intro is
    induction is with
    | nil => exact fun s => .refl _
    | cons i is ih => exact fun s => (checkStep_sysSent now s i).trans (ih _)
  have := fold (List.range s.node.nrMod) (s, true)
  unfold checkImage
  split
  · split
    · exact .refl _
    split
    · exact .refl _
    · simp only
      generalize (List.range s.node.nrMod).foldl (checkStep now) (s, true) = r at *
      split
      · exact this.trans (callOpt_sysSent (env := env) { r.1 with sync := { r.1.sync with timeValid := now } } r.1.sync.allCb)
      · exact this
  · exact .refl _

theorem request_legal (he : EnvL env) {s s' : Slave} {now dlc : Nat} (hl : NodeL env s.node) (h : processRequest env s now dlc = some s') :
    NodeL env s'.node := by
  have h1 : NodeL env (checkImage env (reqRx s) now).node := ((reqRx_sysSent s).trans (checkImage_sysSent _ now)).legal hl
  unfold processRequest at h
  simp only at h
  generalize checkImage env (reqRx s) now = k at *
  split at h
  · cases h
  · next n hn =>
    have h2 := h1.process he hn
    split at h
    · injection h with h; subst h
      exact (SysSent.sendOneError n).legal h2
    · injection h with h; subst h; exact h2

theorem dataPart_legal {s : Slave} (hl : NodeL env s.node) (obj dlc id : Nat) (data : List Byte) : NodeL env (dataPart env s obj dlc id data).node := by
  have d := dataPart_keeps env s obj dlc id data
  exact ⟨hl.1.light d.1, by unfold LogL; rw [d.2.2.2.1]; exact hl.2⟩

/-- API calls with legal arguments -/
def InL : In → Prop
  | .table o => OpL o
  | _ => True

theorem step_legal (he : EnvL env) {s s' : Slave} {i : In} (hl : NodeL env s.node) (hi : InL i) (h : Slave.step env s i = some s') :
    NodeL env s'.node := by
  cases i with
  | frame now obj dlc id data =>
    have h' : handlerRx env s now obj dlc id data = some s' := h
    rw [handlerRx_eq] at h'
    have h1 := dataPart_legal hl obj dlc id data
    generalize dataPart env s obj dlc id data = s1 at *
    have hr : ∀ s2, reqPart env s1 now obj dlc = some s2 → NodeL env s2.node := by
      intro s2 h2
      unfold reqPart at h2
      split at h2
      · exact request_legal he h1 h2
      · injection h2 with h2; rw [← h2]; exact h1
    split at h'
    · simp only [Option.bind_eq_some_iff] at h'
      obtain ⟨s2, h2, h3⟩ := h'
      simp only [sysPart, Option.map_eq_some_iff] at h3
      obtain ⟨⟨r, e⟩, h4, h5⟩ := h3
      subst h5
      exact (sysMsg_legal he (hr s2 h2) h4).report _
    · exact hr s' h'
  | trigger now =>
    injection h with h; subst h
    obtain ⟨p, hp⟩ := trigger_eq env s now
    rw [hp]; exact hl
  | getPeriode => injection h with h; subst h; exact hl
  | setCycle t =>
    injection h with h; subst h
    unfold setCycle; split <;> exact hl
  | validCb typ nr f =>
    injection h with h; subst h
    rcases setModCb_keeps env s typ nr (fun v tp => { v with validCb := upd v.validCb tp f }) with e | ⟨tp, e⟩ <;> rw [e] <;>
      exact hl
  | invalidCb typ nr f =>
    injection h with h; subst h
    rcases setModCb_keeps env s typ nr (fun v tp => { v with invalidCb := upd v.invalidCb tp f }) with e | ⟨tp, e⟩ <;> rw [e] <;>
      exact hl
  | reqCb typ nr f =>
    injection h with h; subst h
    rcases setModCb_keeps env s typ nr (fun v tp => { v with reqCb := upd v.reqCb tp f }) with e | ⟨tp, e⟩ <;> rw [e] <;>
      exact hl
  | timeCb f =>
    injection h with h; subst h
    unfold setTimeCb; split <;> exact hl
  | resetCb f =>
    injection h with h; subst h
    unfold setResetCb; split <;> exact hl
  | init baud =>
    injection h with h; subst h
    unfold Slave.init
    simp only
    have := hl.init
    generalize s.node.init env = r at *
    split <;> exact this
  | table o => injection h with h; subst h; exact hl.step he o hi
  | setMode m => injection h with h; subst h; exact hl
  | setBaud b => injection h with h; subst h; exact hl
  | allCb f => injection h with h; subst h; exact hl
  | firstCb f => injection h with h; subst h; exact hl
  | firstStatusCb f => injection h with h; subst h; exact hl

end Slave
end LiCan
