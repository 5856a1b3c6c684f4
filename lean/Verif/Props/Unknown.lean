import Verif.Model.Unknown
import Verif.Props.AddReport
import Verif.Lemmas.StackExample
/-! # The substitute module (C116) -/
namespace LiCan
open Spec

namespace Spec

/-- number of the substitute module: the prepared number of the main module, or 125 -/
def substituteNr (main : Nat) : Nat := if 2 ≤ main ∧ main ≤ 124 then main else 125

/-- the type "UKWN" -/
def ukwn : List Byte := "UKWN".toList.map fun c => UInt8.ofNat c.toNat

/-- no module is registered -/
def NoModule (env : Env) (n : Node) : Prop := ∀ i < env.maxMod, (n.rows i).typ = []

/-- the frames among the events of the node -/
def busFrames (l : List Ev) : List Frame := l.filterMap fun e => match e with
  | .frame f _ => some f
  | _ => none

end Spec

namespace Node

theorem addUkwn_row (env : Env) (n : Node) (nr : Nat) (hm : 0 < env.maxMod) (h0 : (n.rows 0).typ = []) :
    let tpl : Row := { ukwnTpl with nr := if 124 < nr ∨ nr < 2 then 125 else nr }
    ∃ r, r = setModule env n 0 tpl tpl.nr (fun _ => 0) (fun _ => 0) ∧ addUkwn env n nr = (report env r.1 r.2, E.ok) := by
  intro tpl
  have : (List.range env.maxMod).find? (fun i => decide ((n.rows i).typ = [])) = some 0 := by
    rw [List.find?_range_eq_some]
    exact ⟨by simpa using h0, by simpa using hm, fun j hj => by omega⟩
  exact ⟨_, rfl, by simp only [addUkwn, addModule, this]; rfl⟩

/-- what a registration without objects leaves alone -/
structure Bare (i : Nat) (n n' : Node) : Prop where
  typ : (n'.rows i).typ = (n.rows i).typ
  nr : (n'.rows i).nr = (n.rows i).nr
  rx : (n'.rows i).rxObj = (n.rows i).rxObj
  tx : (n'.rows i).txObj = (n.rows i).txObj
  nrMod : n'.nrMod = n.nrMod
  mem : n'.mem = n.mem
  frames : busFrames n'.log = busFrames n.log

theorem Bare.trans {i : Nat} {a b c : Node} (h : Bare i a b) (g : Bare i b c) : Bare i a c :=
  ⟨g.typ.trans h.typ, g.nr.trans h.nr, g.rx.trans h.rx, g.tx.trans h.tx, g.nrMod.trans h.nrMod, g.mem.trans h.mem,
   g.frames.trans h.frames⟩
theorem Bare.of_hw {i : Nat} {n n' : Node} (h : HwOnly n n') : Bare i n n' := by
  obtain ⟨_, _, _, _, rfl⟩ := h; exact ⟨rfl, rfl, rfl, rfl, rfl, rfl, rfl⟩
theorem Bare.report {i : Nat} (env : Env) (n : Node) (e : Err) : Bare i n (report env n e) := by
  unfold Node.report; split <;> exact ⟨rfl, rfl, rfl, rfl, rfl, rfl, rfl⟩

theorem Bare.silentAwake {i : Nat} (env : Env) (n : Node) (st : Nat) (hr : (n.rows i).rxObj = 0) (ht : (n.rows i).txObj = 0) :
    Bare i n (setSilentAwake env n i st).1 := by
  unfold setSilentAwake
  split
  · simp only
    split
    · constructor <;> simp [syncOff, setRow, forDo, hr, ht, busFrames]
    · split
      · constructor <;> simp [syncOn, setRow, forDo, hr, ht, busFrames]
      · constructor <;> simp [busFrames]
  · exact ⟨rfl, rfl, rfl, rfl, rfl, rfl, rfl⟩

theorem Bare.finish {i : Nat} (env : Env) (n : Node) (idx nr : Nat) (nrs : List Nat) (hr : (n.rows i).rxObj = 0)
    (ht : (n.rows i).txObj = 0) : Bare i n (finish env n i idx nr nrs).1 := by
  rw [finish_eq]
  have h := Bare.of_hw (i := i) (finishHw_hwOnly env n idx nr nrs)
  generalize finishHw env n idx nr nrs = r at *
  unfold thenOk
  split
  · exact h.trans (.silentAwake env _ _ (h.rx.trans hr) (h.tx.trans ht))
  · exact h

/-- registering without objects: what the row gets -/
theorem setModule_bare (env : Env) (n : Node) (i : Nat) (tpl : Row) (nr : Nat) (rx tx : Nat → Nat)
    (hr : tpl.rxObj = 0) (ht : tpl.txObj = 0) :
    let r := setModule env n i tpl nr rx tx
    r.1.nrMod = n.nrMod + 1 ∧ (r.1.rows i).typ = tpl.typ ∧ (r.1.rows i).nr = effNr i nr ∧ (r.1.rows i).rxObj = 0 ∧
    (r.1.rows i).txObj = 0 ∧ r.1.mem = n.mem ∧ busFrames r.1.log = busFrames n.log := by
  intro r
  have e : r = setModule env n i tpl nr rx tx := rfl
  clear_value r
  simp only [setModule] at e
  have h1 : setTx env (n.fillRow i tpl (effNr i nr) rx tx) i (effNr i nr) = (n.fillRow i tpl (effNr i nr) rx tx, E.ok) := by
    simp [setTx, fillRow, setRow, ht, forErr]
  rw [h1, thenOk_ok] at e
  generalize hm : (n.fillRow i tpl (effNr i nr) rx tx).setRow i (fun r => { r with rxObjSync := r.rxObj }) = m at e
  have h2 : setRx env (n.fillRow i tpl (effNr i nr) rx tx) i (effNr i nr) = (m, E.ok) := by
    rw [← hm]; simp [setRx, fillRow, setRow, hr, forErr]
  rw [h2, thenOk_ok] at e
  have b1 : (m.rows i).typ = tpl.typ := by rw [← hm]; simp [fillRow, setRow]
  have b2 : (m.rows i).nr = effNr i nr := by rw [← hm]; simp [fillRow, setRow]
  have b3 : (m.rows i).rxObj = 0 := by rw [← hm]; simp [fillRow, setRow, hr]
  have b4 : (m.rows i).txObj = 0 := by rw [← hm]; simp [fillRow, setRow, ht]
  have b5 : m.nrMod = n.nrMod := by rw [← hm]; rfl
  have b6 : m.mem = n.mem := by rw [← hm]; rfl
  have b7 : m.log = n.log := by rw [← hm]; rfl
  have h := Bare.finish (i := i) env m m.nrMod (effNr i nr) ((List.range (i + 1)).map fun i => (m.rows i).nr) b3 b4
  generalize Node.finish env m i m.nrMod (effNr i nr) ((List.range (i + 1)).map fun i => (m.rows i).nr) = q at *
  subst e
  exact ⟨by rw [← b5]; exact congrArg (· + 1) h.nrMod, h.typ.trans b1, h.nr.trans b2, h.rx.trans b3, h.tx.trans b4,
    h.mem.trans b6, by rw [← b7]; exact h.frames⟩

theorem startNode_row (env : Env) (n : Node) (hm : 0 < env.maxMod) (h0 : (n.rows 0).typ = []) (hn : n.nrMod = 0) :
    let m := startNode env n
    (m.rows 0).typ = ukwn ∧ (m.rows 0).nr = substituteNr (n.rows 0).nr ∧ (m.rows 0).rxObj = 0 ∧ (m.rows 0).txObj = 0 ∧
    (∀ i, i ≠ 0 → m.rows i = n.rows i) ∧ m.nrMod = 1 ∧ m.mem = n.mem ∧ busFrames m.log = busFrames n.log := by
  intro m
  have e : m = (addUkwn env n (n.rows 0).nr).1 := if_pos hn
  clear_value m
  have hx := C05_first_free_row env n { ukwnTpl with nr := if 124 < (n.rows 0).nr ∨ (n.rows 0).nr < 2 then 125 else (n.rows 0).nr }
    (if 124 < (n.rows 0).nr ∨ (n.rows 0).nr < 2 then 125 else (n.rows 0).nr) (fun _ => 0) (fun _ => 0) 0 hm h0 (fun j hj => by omega)
  obtain ⟨r, er, ea⟩ := addUkwn_row env n (n.rows 0).nr hm h0
  have hb := setModule_bare env n 0 { ukwnTpl with nr := if 124 < (n.rows 0).nr ∨ (n.rows 0).nr < 2 then 125 else (n.rows 0).nr }
    (if 124 < (n.rows 0).nr ∨ (n.rows 0).nr < 2 then 125 else (n.rows 0).nr) (fun _ => 0) (fun _ => 0) rfl rfl
  simp only at hb er
  rw [← er] at hb
  have hq := Bare.report (i := 0) env r.1 r.2
  have em : m = report env r.1 r.2 := by rw [e, ea]
  rw [← em] at hq
  obtain ⟨c1, c2, c3, c4, c5, c6, c7⟩ := hb
  refine ⟨hq.typ.trans (c2.trans (by decide)), hq.nr.trans (c3.trans ?_), hq.rx.trans c4, hq.tx.trans c5, ?_, ?_, hq.mem.trans c6,
    hq.frames.trans c7⟩
  · unfold effNr substituteNr u16
    repeat' split
    all_goals omega
  · intro i hi; rw [e]; exact hx i hi
  · rw [hq.nrMod, c1, hn]

/-- a registration completed as far as the receive objects is counted -/
theorem setModule_counted (env : Env) (he : EnvOk env) (hhw : ∀ k, env.hwOk k = true) (n : Node) (i : Nat) (tpl : Row) (nr : Nat)
    (rx tx : Nat → Nat) (hi : i < env.maxMod) (h4 : tpl.txObj ≤ 4) (hr : tpl.rxObj ≤ freeCnt env n)
    (hs : n.slots.length + tpl.rxObj ≤ 4 * env.maxMod) :
    (setModule env n i tpl nr rx tx).1.nrMod = n.nrMod + 1 := by
  generalize hr' : Node.setModule env n i tpl nr rx tx = r
  simp only [Node.setModule] at hr'
  have hset : setTx env (n.fillRow i tpl (effNr i nr) rx tx) i (effNr i nr) = _ :=
    setTx_eq env _ _ _ hi (by simpa [fillRow, setRow] using h4)
  rw [hset, thenOk_ok] at hr'
  generalize hn1 : ({ n.fillRow i tpl (effNr i nr) rx tx with
      rows := upd (n.fillRow i tpl (effNr i nr) rx tx).rows i
        { (n.fillRow i tpl (effNr i nr) rx tx).rows i with
          txDlcSync := first ((n.fillRow i tpl (effNr i nr) rx tx).rows i).txObj
            ((n.fillRow i tpl (effNr i nr) rx tx).rows i).txDlc
            ((n.fillRow i tpl (effNr i nr) rx tx).rows i).txDlcSync }
      tx := cnfgTx (n.fillRow i tpl (effNr i nr) rx tx).tx
        ((n.fillRow i tpl (effNr i nr) rx tx).rows i).txDlc i (effNr i nr)
        ((n.fillRow i tpl (effNr i nr) rx tx).rows i).txObj } : Node) = n1 at hr'
  have b1 : n1.hw = n.hw := by rw [← hn1]; rfl
  have b2 : n1.slots = n.slots := by rw [← hn1]; rfl
  have b4 : n1.nrMod = n.nrMod := by rw [← hn1]; rfl
  have b7 : (n1.rows i).rxObj = tpl.rxObj := by rw [← hn1]; simp [fillRow, setRow]
  have key : (Node.setRx env n1 i (effNr i nr)).2 = E.ok := by
    unfold Node.setRx
    simp only
    have hrx : ((n1.setRow i fun r => { r with rxObjSync := r.rxObj }).rows i).rxObj = tpl.rxObj := by
      simp [setRow, b7]
    rw [hrx]
    refine (forErr_ok (fun k x => freeCnt env x + k = freeCnt env n ∧ x.slots.length = n.slots.length + k) _ ?_ _ ?_).1
    · rintro j hj x ⟨p1, p2⟩
      have := setRx1_ok env i (effNr i nr) j x hhw (by omega) (by omega)
      simp only at this
      exact ⟨this.1, by omega, by omega⟩
    · refine ⟨freeCnt_congr env n _ (by simp only [setRow, b1]), ?_⟩
      simp [setRow, b2]
  have r2 := setRx_rxOnly env n1 i (effNr i nr)
  have hm2 : (Node.setRx env n1 i (effNr i nr)).1.nrMod = n.nrMod := by
    obtain ⟨_, _, _, _, _, _, e⟩ := r2; rw [e]; simp [setRow, b4]
  generalize Node.setRx env n1 i (effNr i nr) = q at key hm2 hr'
  obtain ⟨n2, e2⟩ := q
  simp only at key hm2
  subst key
  rw [thenOk_ok] at hr'
  rw [← hr']
  show (finish env n2 i n2.nrMod (effNr i nr) ((List.range (i + 1)).map fun i => (n2.rows i).nr)).1.nrMod + 1 = _
  rw [finish_eq]
  have h := finishHw_hwOnly env n2 n2.nrMod (effNr i nr) ((List.range (i + 1)).map fun i => (n2.rows i).nr)
  generalize finishHw env n2 n2.nrMod (effNr i nr) ((List.range (i + 1)).map fun i => (n2.rows i).nr) = f at h
  have hf : f.1.nrMod = n.nrMod := by obtain ⟨_, _, _, _, e⟩ := h; rw [e]; exact hm2
  unfold thenOk
  split
  · rw [(setSilentAwake_sameHw ..).nrMod, hf]
  · rw [hf]

/-- a registration never lowers the number of modules -/
theorem setModule_mono (env : Env) (n : Node) (i : Nat) (tpl : Row) (nr : Nat) (rx tx : Nat → Nat) :
    n.nrMod ≤ (setModule env n i tpl nr rx tx).1.nrMod := by
  have ht : ∀ (m : Node) (is : List Nat), (forErr (fun j n =>
      txCnfg env (n.setRow i fun r => { r with txDlcSync := upd r.txDlcSync j (r.txDlc j) }) i j (effNr i nr)) is m).1.nrMod = m.nrMod := by
    intro m is
    induction is generalizing m with
    | nil => rfl
    | cons j is ih =>
      have h1 : (txCnfg env (m.setRow i fun r => { r with txDlcSync := upd r.txDlcSync j (r.txDlc j) }) i j (effNr i nr)).1.nrMod = m.nrMod := by
        unfold txCnfg
        split
        · rfl
        · split <;> rfl
      unfold forErr thenOk
      split
      · exact (ih _).trans h1
      · exact h1
  have le : ∀ {r : Node × Err} {f : Node → Node × Err}, r.1.nrMod = n.nrMod → (∀ m : Node, m.nrMod = n.nrMod → n.nrMod ≤ (f m).1.nrMod) →
      n.nrMod ≤ (thenOk r f).1.nrMod := by
    intro r f h g
    unfold thenOk
    split
    · exact g _ h
    · exact Nat.le_of_eq h.symm
  simp only [setModule]
  refine le (ht _ _) fun m hm => le ?_ fun m hm => ?_
  · obtain ⟨_, _, _, _, _, _, e⟩ := setRx_rxOnly env m i (effNr i nr)
    rw [e]; exact hm
  · have h3 : (finish env m i m.nrMod (effNr i nr) ((List.range (i + 1)).map fun i => (m.rows i).nr)).1.nrMod = n.nrMod := by
      rw [finish_eq]
      have h := finishHw_hwOnly env m m.nrMod (effNr i nr) ((List.range (i + 1)).map fun i => (m.rows i).nr)
      generalize finishHw env m m.nrMod (effNr i nr) ((List.range (i + 1)).map fun i => (m.rows i).nr) = f at h
      have hf : f.1.nrMod = n.nrMod := by obtain ⟨_, _, _, _, e⟩ := h; rw [e]; exact hm
      unfold thenOk
      split
      · rw [(setSilentAwake_sameHw ..).nrMod, hf]
      · exact hf
    show n.nrMod ≤ _ + 1
    rw [h3]; omega

/-- with a controller that accepts all objects the modules are counted as long as there are none -/
theorem counted {env : Env} (he : EnvOk env) (hhw : ∀ k, env.hwOk k = true) (ops : List Op) (hb : ∀ o ∈ ops, Basic o) :
    ∀ {n : Node} {t : Table}, Good env n t → (t.mods.length = 0 → 4 ≤ freeCnt env n) → (n.nrMod = 0 → t.mods.length = 0) →
    ((Node.run env n ops).nrMod = 0 → (specRun env n t ops).mods.length = 0) := by
  induction ops with
  | nil => exact fun _ _ h => h
  | cons o os ih =>
    intro n t h hf h0
    have hs := h.step he o (hb o (by simp))
    have same : SameHw n (Node.step env n o).1 → (t.step env.maxMod (regOk env n o) o).1.mods.length = t.mods.length →
        ((t.step env.maxMod (regOk env n o) o).1.mods.length = 0 → 4 ≤ freeCnt env (Node.step env n o).1) ∧
        ((Node.step env n o).1.nrMod = 0 → (t.step env.maxMod (regOk env n o) o).1.mods.length = 0) := by
      intro s e
      rw [e, freeCnt_congr env n _ (by rw [s.hw]), s.nrMod]
      exact ⟨hf, h0⟩
    have key : ((t.step env.maxMod (regOk env n o) o).1.mods.length = 0 → 4 ≤ freeCnt env (Node.step env n o).1) ∧
        ((Node.step env n o).1.nrMod = 0 → (t.step env.maxMod (regOk env n o) o).1.mods.length = 0) := by
      have hbo := hb o (by simp)
      cases o with
      | add tpl nr rx tx =>
        by_cases hl : t.mods.length = env.maxMod
        · have e1 : (Node.step env n (.add tpl nr rx tx)).1 = n := by
            show (addModule env n tpl nr rx tx).1 = n
            simp only [addModule, h.sim.freeRow, hl, if_true]
          have e2 : ∀ ok, (t.step env.maxMod ok (.add tpl nr rx tx)).1 = t := by simp [Table.step, hl]
          rw [e1, e2]; exact ⟨hf, h0⟩
        · have hlt : t.mods.length < env.maxMod := by have := h.sim.len; omega
          have hlen : ∀ ok, (t.step env.maxMod ok (.add tpl nr rx tx)).1.mods.length = t.mods.length + 1 := by
            simp [Table.step, hl]
          rw [hlen]
          refine ⟨fun e => by omega, fun e => ?_⟩
          exfalso
          have hk : ∃ k, (Node.step env n (.add tpl nr rx tx)).1 = report env (setModule env n t.mods.length tpl k rx tx).1
              (setModule env n t.mods.length tpl k rx tx).2 := by
            show ∃ k, (addModule env n tpl nr rx tx).1 = _
            simp only [addModule, h.sim.freeRow, hl, if_false]
            split
            · exact ⟨125 + t.mods.length, rfl⟩
            · exact ⟨nr, rfl⟩
          obtain ⟨k, ek⟩ := hk
          rw [ek, (Light.report ..).nrMod] at e
          by_cases hz : t.mods.length = 0
          · have hc := setModule_counted env he hhw n t.mods.length tpl k rx tx hlt hbo.2.1
              (Nat.le_trans hbo.2.2 (hf hz)) (by
                have h1 := h.hw.cnt; have h2 : tpl.rxObj ≤ 4 := hbo.2.2; omega)
            rw [hc] at e
            exact Nat.succ_ne_zero _ e
          · have hm := setModule_mono env n t.mods.length tpl k rx tx
            have : n.nrMod ≠ 0 := fun e => hz (h0 e)
            omega
      | silentAwake tp st => exact same (setSilentAwake_sameHw ..) (step_length (by simp))
      | silentAwakeBy typ nr st => exact same (setSilentAwakeBy_sameHw ..) (step_length (by simp))
      | setActive typ => exact same (setActive_sameHw ..) (step_length (by simp))
      | setCritical typ => exact same (setCritical_sameHw ..) (step_length (by simp))
      | process => exact same (process_sameHw ..) rfl
      | changeNr | changeModuleNr | changeTypeAdd | changeType => exact absurd hbo (by simp [Basic])
    exact ih (fun o ho => hb o (by simp [ho])) hs.1 key.1 key.2

theorem Reach.counted {env : Env} (he : EnvOk env) (hhw : ∀ k, env.hwOk k = true) {n : Node} (h : Reach env n)
    (h0 : n.nrMod = 0) : NoModule env n := by
  obtain ⟨mem, ops, hok, hb, rfl⟩ := h
  have hg := Good.run he ops hb (Good.init he mem hok)
  have hc := Node.counted he hhw ops hb (Good.init he mem hok) (fun _ => by
    rw [freeCnt_init he mem hok]; have := he.o10; split <;> omega) (fun _ => rfl) h0
  intro i _
  by_cases e : ((Node.run env (Node.init env (boot mem)).1 ops).rows i).typ = []
  · exact e
  · have := (hg.sim.registered i).1 e; omega

end Node

namespace Stack
variable {env : AEnv}

/-- the same module table -/
def SameTab (s s' : Stack) : Prop := Light s.slv.node s'.slv.node

theorem SameTab.refl (s : Stack) : SameTab s s := Light.refl _
theorem SameTab.of_eq {s s' : Stack} (h : s'.slv.node = s.slv.node) : SameTab s s' := by
  unfold SameTab; rw [h]; exact .refl _
theorem SameTab.trans {a b c : Stack} (h : SameTab a b) (g : SameTab b c) : SameTab a c := Light.trans h g

theorem notify_tab (s : Stack) (f : Option Nat) (c : Nat → ACall) : SameTab s (s.notify f c) := by
  unfold notify; split
  · exact .refl _
  · exact ⟨rfl, rfl, rfl, rfl, rfl, rfl, rfl, rfl⟩

theorem rcStartup_tab (s : Stack) (now : Nat) : SameTab s (s.rcStartup env now) := by
  unfold rcStartup; simp only
  split
  · have h := notify_tab s s.rc.suStart .suStart
    generalize s.notify s.rc.suStart .suStart = t at h
    exact h
  · exact .refl _

theorem startAck_tab (s : Stack) : SameTab s (s.startAck env) := by
  unfold startAck
  split
  · exact Light.send ..
  · exact .refl _

theorem start_tab (s : Stack) (now : Nat) : SameTab s (s.start env now).1 := by
  unfold start
  simp only
  by_cases hd : s.lcsa = .download
  · simp only [hd, if_true]
    have hx : SameTab s (((s.setR fun c => { c with state := .off }).nodeMode env .stopped).1.baudRate env
      ((s.setR fun c => { c with state := .off }).nodeMode env .stopped).1.slv.link.startup).1 := .of_eq rfl
    generalize (((s.setR fun c => { c with state := .off }).nodeMode env .stopped).1.baudRate env
      ((s.setR fun c => { c with state := .off }).nodeMode env .stopped).1.slv.link.startup).1 = t at hx
    have hy : SameTab s ((t.setR fun c => { c with cause := .download }).nodeMode env .operational).1 := hx
    generalize (t.setR fun c => { c with cause := .download }).nodeMode env .operational = r at hy
    by_cases e : r.2 = E.ok
    · simp only [e, if_true]
      exact SameTab.trans hy (startAck_tab { r.1 with lcsa := .running })
    · simp only [e, if_false]; exact hy
  · simp only [hd, if_false]
    have hx : SameTab s (((s.setR fun c => { c with state := .startup }).nodeMode env .stopped).1.baudRate env
      ((s.setR fun c => { c with state := .startup }).nodeMode env .stopped).1.slv.link.startup).1 := .of_eq rfl
    generalize (((s.setR fun c => { c with state := .startup }).nodeMode env .stopped).1.baudRate env
      ((s.setR fun c => { c with state := .startup }).nodeMode env .stopped).1.slv.link.startup).1 = t at hx
    have hy : SameTab s ((t.rcStartup env now).nodeMode env .listen).1 := hx.trans (rcStartup_tab t now)
    generalize (t.rcStartup env now).nodeMode env .listen = r at hy
    by_cases e : r.2 = E.ok
    · simp only [e, if_true]
      exact SameTab.trans hy (startAck_tab r.1)
    · simp only [e, if_false]; exact hy

/-- the registration `lcsa_start` makes on behalf of the application -/
def ukwnIn (s : Stack) : SIn :=
  .api (.table (.add { Node.ukwnTpl with nr := substituteNr (s.slv.node.rows 0).nr } (substituteNr (s.slv.node.rows 0).nr) (fun _ => 0)
    (fun _ => 0)))

theorem substitute_eq (nr : Nat) : (if 124 < nr ∨ nr < 2 then 125 else nr) = substituteNr nr := by
  unfold substituteNr
  repeat' split
  all_goals omega

theorem startU_run (s : Stack) (now : Nat) :
    run env s (if s.slv.node.nrMod = 0 then [ukwnIn s, .start now] else [.start now]) = some (s.startU env now).1 := by
  by_cases h : s.slv.node.nrMod = 0
  · rw [if_pos h]
    have : s.slv.node.startNode env.toEnv = (s.slv.node.step env.toEnv (.add { Node.ukwnTpl with nr := substituteNr (s.slv.node.rows 0).nr }
        (substituteNr (s.slv.node.rows 0).nr) (fun _ => 0) (fun _ => 0))).1 := by
      unfold Node.startNode Node.addUkwn
      rw [if_pos h]
      simp only [substitute_eq]
      rfl
    unfold startU
    rw [this]
    rfl
  · rw [if_neg h]
    have : s.slv.node.startNode env.toEnv = s.slv.node := by unfold Node.startNode; rw [if_neg h]
    unfold startU
    rw [this]
    rfl

end Stack

namespace Spec

/-- a registration of a module of type "UKWN" -/
def isUkwn : SIn → Bool
  | .api (.table (.add tpl ..)) => tpl.typ = ukwn
  | _ => false

end Spec

open Stack

/-- C116: `lcsa_start` with no module registered: the first row gets the type "UKWN" and the prepared number of the main module (125
if that one is not 2..124), without objects; the other rows and the application objects stay as they are. -/
theorem C116_substitute (env : AEnv) (s : Stack) (now : Nat) (hm : 0 < env.maxMod) (h0 : (s.slv.node.rows 0).typ = [])
    (hn : s.slv.node.nrMod = 0) :
    let n := (s.startU env now).1.slv.node
    (n.rows 0).typ = ukwn ∧ (n.rows 0).nr = substituteNr (s.slv.node.rows 0).nr ∧ (n.rows 0).rxObj = 0 ∧ (n.rows 0).txObj = 0 ∧
    (∀ i, i ≠ 0 → n.rows i = s.slv.node.rows i) ∧ n.nrMod = 1 := by
  have h := Node.startNode_row env.toEnv s.slv.node hm h0 hn
  have l := start_tab (env := env) { s with slv := { s.slv with node := s.slv.node.startNode env.toEnv } } now
  intro n
  have l : Light (s.slv.node.startNode env.toEnv) n := l
  clear_value n
  rw [l.rows, l.nrMod]
  obtain ⟨a, b, c, d, e, f, -⟩ := h
  exact ⟨a, b, c, d, e, f⟩

/-- C116: if modules are counted, `lcsa_start` leaves the table as it is: it is the function without the option. -/
theorem C116_untouched (env : AEnv) (s : Stack) (now : Nat) (hn : s.slv.node.nrMod ≠ 0) :
    s.startU env now = s.start env now ∧ (s.startU env now).1.slv.node.rows = s.slv.node.rows := by
  have : s.startU env now = s.start env now := by
    unfold startU Node.startNode
    rw [if_neg hn]
  exact ⟨this, by rw [this]; exact (start_tab (env := env) s now).rows⟩

/-- C116: a second `lcsa_start` registers nothing more. -/
theorem C116_once (env : AEnv) (s : Stack) (now now' : Nat) (hm : 0 < env.maxMod) (h0 : (s.slv.node.rows 0).typ = [])
    (hn : s.slv.node.nrMod = 0) :
    (((s.startU env now).1.startU env now').1).slv.node.rows = (s.startU env now).1.slv.node.rows :=
  (C116_untouched env _ now' (by
    have := (C116_substitute env s now hm h0 hn).2.2.2.2.2
    rw [this]; decide)).2

/-- C116: after `lcsa_start` a module is registered, whatever the application has registered before. -/
theorem C116_never_empty (env : AEnv) (he : Node.EnvOk env.toEnv) (hm : 0 < env.maxMod) (s : Stack) (now : Nat)
    (h : Node.Reach env.toEnv s.slv.node) : ∃ i < env.maxMod, ((s.startU env now).1.slv.node.rows i).typ ≠ [] := by
  by_cases h0 : (s.slv.node.rows 0).typ = []
  · by_cases hn : s.slv.node.nrMod = 0
    · refine ⟨0, hm, ?_⟩
      rw [(C116_substitute env s now hm h0 hn).1]; decide
    · obtain ⟨t, hg, -⟩ := h.good he
      have := hg.nrMod
      exact absurd h0 ((hg.sim.registered 0).2 (by omega))
  · refine ⟨0, hm, ?_⟩
    by_cases hn : s.slv.node.nrMod = 0
    · have l := start_tab (env := env) { s with slv := { s.slv with node := s.slv.node.startNode env.toEnv } } now
      have l : Light (s.slv.node.startNode env.toEnv) (s.startU env now).1.slv.node := l
      rw [l.rows]
      unfold Node.startNode Node.addUkwn
      rw [if_pos hn]
      obtain ⟨t, hg, -⟩ := h.good he
      by_cases hfull : ∀ i < env.maxMod, (s.slv.node.rows i).typ ≠ []
      · simp only [C05_full env.toEnv s.slv.node _ _ _ _ hfull]; exact h0
      · have hlt : t.mods.length < env.maxMod := by
          rcases Nat.lt_or_ge t.mods.length env.maxMod with hh | hh
          · exact hh
          · exact absurd (fun i hi => (hg.sim.registered i).2 (by omega)) hfull
        have hfree : (s.slv.node.rows t.mods.length).typ = [] := by
          by_cases e : (s.slv.node.rows t.mods.length).typ = []
          · exact e
          · exact absurd ((hg.sim.registered _).1 e) (by omega)
        have hpos := (hg.sim.registered 0).1 h0
        simp only [C05_first_free_row env.toEnv s.slv.node _ _ _ _ t.mods.length hlt hfree
          (fun j hj => (hg.sim.registered j).2 hj) 0 (by omega)]
        exact h0
    · rw [(C116_untouched env s now hn).2]; exact h0

/-- C116: with a controller that accepts every object the substitute is registered if and only if there is no module. -/
theorem C116_only_if_empty_partial (env : AEnv) (he : Node.EnvOk env.toEnv) (hm : 0 < env.maxMod) (hhw : ∀ k, env.hwOk k = true)
    (s : Stack) (now : Nat) (h : Node.Reach env.toEnv s.slv.node) :
    (NoModule env.toEnv s.slv.node → ((s.startU env now).1.slv.node.rows 0).typ = ukwn) ∧
    (¬ NoModule env.toEnv s.slv.node → s.startU env now = s.start env now ∧ (s.startU env now).1.slv.node.rows = s.slv.node.rows) := by
  constructor
  · intro he'
    have hn : s.slv.node.nrMod = 0 := by
      obtain ⟨t, hg, -⟩ := h.good he
      have h1 := hg.nrMod
      rcases Nat.eq_zero_or_pos t.mods.length with e | e
      · omega
      · exact absurd (he' 0 hm) ((hg.sim.registered 0).2 e)
    exact (C116_substitute env s now hm (he' 0 hm) hn).1
  · intro hne
    exact C116_untouched env s now fun hn => hne (h.counted he hhw hn)

/-- C116: a history with the option is a history without it in which the application registers the substitute itself, so everything
shown for all histories holds with the option too. -/
theorem C116_histories (env : AEnv) (is : List SIn) : ∀ s : Stack, ∃ is', runU env s is = run env s is' ∧
    is'.filter (fun i => !isUkwn i) = is.filter (fun i => !isUkwn i) := by
  have app : ∀ (a b : List SIn) (s : Stack), run env s (a ++ b) = (run env s a).bind fun s' => run env s' b := by
    intro a
    induction a with
    | nil => intro b s; rfl
    | cons i a ih =>
      intro b s
      show (step env s i).bind _ = ((step env s i).bind _).bind _
      cases step env s i with
      | none => rfl
      | some t => exact ih b t
  induction is with
  | nil => intro s; exact ⟨[], rfl, rfl⟩
  | cons i is ih =>
    intro s
    have plain : stepU env s i = step env s i → ∃ is', runU env s (i :: is) = run env s is' ∧
        is'.filter (fun i => !isUkwn i) = (i :: is).filter (fun i => !isUkwn i) := by
      intro e
      cases hs : step env s i with
      | none =>
        refine ⟨i :: is, ?_, rfl⟩
        show (stepU env s i).bind _ = (step env s i).bind _
        rw [e, hs]; rfl
      | some t =>
        obtain ⟨is', e1, e2⟩ := ih t
        refine ⟨i :: is', ?_, ?_⟩
        · show (stepU env s i).bind _ = (step env s i).bind _
          rw [e, hs]; exact e1
        · rw [List.filter_cons, List.filter_cons, e2]
    cases i with
    | start now =>
      obtain ⟨is', e1, e2⟩ := ih (s.startU env now).1
      refine ⟨(if s.slv.node.nrMod = 0 then [ukwnIn s, .start now] else [.start now]) ++ is', ?_, ?_⟩
      · rw [app, startU_run]; exact e1
      · rw [List.filter_append, e2]
        split
        · rfl
        · rfl
    | _ => exact plain rfl

/-- a controller that refuses the sixth object programmed: the first receive object of the first module -/
def exRefuse : AEnv := { exA with hwOk := fun k => k ≠ 5 }

/-- C116 fails in one direction when the controller refuses an object: the application registers one module, number 5, and is told OK;
`lcsa_start` finds no module counted and registers the substitute beside it, in row 1 with number 126. -/
theorem C116_counterexample :
    let s := (run exRefuse (boot Node.exMem exInfo) [.init 250, .api (.table (.add (Node.exTpl 65 2 2) 5 (fun _ => 1) (fun _ => 2)))]).getD
      (boot Node.exMem exInfo)
    let t := (s.startU exRefuse 100).1
    (Node.addModule exRefuse.toEnv (Node.exInit exRefuse.toEnv) (Node.exTpl 65 2 2) 5 (fun _ => 1) (fun _ => 2)).2 = E.ok ∧
    ((s.slv.node.rows 0).typ, (s.slv.node.rows 0).nr, (s.slv.node.rows 1).typ) = ([77, 68, 65], 5, []) ∧
    ((t.slv.node.rows 1).typ, (t.slv.node.rows 1).nr) = (ukwn, 126) := by
  decide +kernel

/-- C116: no module registered; after the start the master's status request to number 125 is answered by "UKWN" -/
example :
    let s := (run exA (boot Node.exMem exInfo) [.init 250]).getD (boot Node.exMem exInfo)
    let t := (s.startU exA 100).1
    (s.slv.node.rows 0).typ = [] ∧ s.slv.node.nrMod = 0 ∧ 0 < exA.maxMod ∧ (t.slv.node.rows 0).nr = 125 ∧
    (run exA t [.rx 200 2 1 0x002 false [0x02], .process 900 .active .none, .rx 6000 2 8 0x1F2 false [1, 0, 0, 0, 0, 0, 0, 0]]).map
      exFrames = some [⟨0x1F3, 8, [4, 0x55, 0x4B, 0x57, 0x4E, 0, 0, 0]⟩] := by
  decide +kernel

/-- C116: the states before the start of the examples are reached -/
example : Node.Reach exA.toEnv (Node.exInit exA.toEnv) ∧ NoModule exA.toEnv (Node.exInit exA.toEnv) ∧
    ¬ NoModule exA.toEnv (Node.run exA.toEnv (Node.exInit exA.toEnv) Node.exOps) := by
  refine ⟨⟨Node.exMem, [], by decide +kernel, (fun _ h => nomatch h), rfl⟩, ?_, ?_⟩
  · unfold NoModule; decide +kernel
  · unfold NoModule; decide +kernel

end LiCan
