import Verif.Lemmas.MonNode
/-! # The monitored process image: evaluation -/
namespace LiCan
open Node Spec Slave
namespace Mon

theorem rxFault_ne {d : Mon} {tp i : Nat} {e : Err} (h : rxFault d tp i = some e) : e ≠ E.ok := by
  unfold rxFault at h
  split at h
  · injection h with h; rw [← h]; decide
  · split at h
    · injection h with h; rw [← h]; decide
    · split at h
      · injection h with h; rw [← h]; decide
      · cases h

/-- is the image of the row valid according to counters and data? -/
def okM (d : Mon) (i : Nat) : Bool :=
  ((List.range (d.s.node.rows i).txObjSync).all fun j => d.m.txCnt i j == 1) &&
  ((List.range (d.s.node.rows i).rxObjSync).findSome? (rxFault d i)).isNone

theorem okM_iff (d : Mon) (i : Nat) : okM d i = true ↔
    (∀ j < (d.s.node.rows i).txObjSync, d.m.txCnt i j = 1) ∧
    (∀ j < (d.s.node.rows i).rxObjSync, d.s.sync.cnt i j = 1 ∧ d.m.rxCnt i j = 1 ∧
      (d.m.monRx i j).take ((d.s.node.rows i).rxDlcSync j) =
        (d.s.node.mem ((d.s.node.rows i).rx j)).take ((d.s.node.rows i).rxDlcSync j)) := by
  unfold okM
  rw [Bool.and_eq_true, List.all_eq_true, Option.isNone_iff_eq_none, List.findSome?_eq_none_iff]
  simp only [List.mem_range, beq_iff_eq]
  refine and_congr Iff.rfl (forall_congr' fun j => ?_)
  refine imp_congr_right fun _ => ?_
  unfold rxFault
  by_cases h1 : d.s.sync.cnt i j = 1
  · by_cases h2 : d.m.rxCnt i j = 1
    · by_cases h3 : (d.m.monRx i j).take ((d.s.node.rows i).rxDlcSync j) =
        (d.s.node.mem ((d.s.node.rows i).rx j)).take ((d.s.node.rows i).rxDlcSync j)
      · simp [h1, h2, h3]
      · simp [h1, h2, h3]
    · simp [h1, h2]
  · simp [h1]

/-- the callback of one module at the evaluation -/
def modEvsM (d : Mon) (i : Nat) : List Ev := calls (if okM d i then d.s.sync.validCb i else d.s.sync.invalidCb i)

/-- the state `d` with other verdicts, times, error counters and log -/
def patch (d : Mon) (v : Nat → Bool) (mt er : Nat → Nat) (a b c : Nat → Nat) (l : List Ev) : Mon :=
  { s := { d.s with sync := { d.s.sync with valid := v, modTime := mt, errRx := er }
                    node := { d.s.node with log := l } }
    m := { d.m with errRx := a, errTx := b, errData := c } }

theorem checkModule_ok {now : Nat} {d : Mon} {i : Nat} (h : okM d i = true) : checkModule d now i =
    ({ d with s := { d.s with sync := { d.s.sync with modTime := upd d.s.sync.modTime i now } } }, E.ok) := by
  unfold okM at h
  rw [Bool.and_eq_true, Option.isNone_iff_eq_none] at h
  unfold checkModule
  rw [if_pos h.1, h.2]

theorem checkModule_bad {now : Nat} {d : Mon} {i : Nat} (h : okM d i = false) : ∃ er a b c e, e ≠ E.ok ∧
    checkModule d now i = (patch d d.s.sync.valid d.s.sync.modTime er a b c d.s.node.log, e) := by
  unfold okM at h
  rw [Bool.and_eq_false_iff] at h
  unfold checkModule
  by_cases h1 : ((List.range (d.s.node.rows i).txObjSync).all fun j => d.m.txCnt i j == 1) = true
  · rw [if_pos h1]
    cases h2 : (List.range (d.s.node.rows i).rxObjSync).findSome? (rxFault d i) with
    | none =>
      rw [h2, h1] at h
      rcases h with h | h <;> cases h
    | some e =>
      have he : e ≠ E.ok := by
        obtain ⟨j, -, hj⟩ := List.exists_of_findSome?_eq_some h2
        exact rxFault_ne hj
      dsimp only
      by_cases e1 : e = E.nrOfRxData
      · simp only [e1, if_true]
        exact ⟨_, _, _, _, _, by decide, rfl⟩
      · rw [if_neg e1]
        by_cases e2 : e = E.monNrOfRxData
        · simp only [e2, if_true]
          exact ⟨_, _, _, _, _, by decide, rfl⟩
        · rw [if_neg e2]
          exact ⟨_, _, _, _, _, he, rfl⟩
  · rw [if_neg h1]
    exact ⟨_, _, _, _, _, by decide, rfl⟩

theorem checkStep_eq (now : Nat) (d : Mon) (b : Bool) (i : Nat) : ∃ er a b' c,
    checkStep now (d, b) i =
      (patch d (upd d.s.sync.valid i (okM d i)) (if okM d i then upd d.s.sync.modTime i now else d.s.sync.modTime) er a b' c
        (modEvsM d i ++ d.s.node.log), b && okM d i) := by
  unfold checkStep modEvsM
  dsimp only
  cases h : okM d i with
  | true =>
    rw [checkModule_ok h]
    dsimp only
    rw [if_neg (by simp)]
    refine ⟨d.s.sync.errRx, d.m.errRx, d.m.errTx, d.m.errData, ?_⟩
    rw [Bool.and_true, if_pos rfl, if_pos rfl]
    unfold patch Mon.callOpt Slave.callOpt
    dsimp only
    cases d.s.sync.validCb i <;> rfl
  | false =>
    obtain ⟨er, a, b', c, e, he, hc⟩ := checkModule_bad (now := now) h
    rw [hc]
    dsimp only
    rw [if_pos he]
    refine ⟨er, a, b', c, ?_⟩
    rw [Bool.and_false, if_neg (by simp), if_neg (by simp)]
    unfold patch Mon.callOpt Slave.callOpt
    dsimp only
    cases d.s.sync.invalidCb i <;> rfl

theorem okM_patch (d : Mon) (v : Nat → Bool) (mt er a b c : Nat → Nat) (l : List Ev) :
    okM (patch d v mt er a b c l) = okM d := rfl

theorem modEvsM_patch (d : Mon) (v : Nat → Bool) (mt er a b c : Nat → Nat) (l : List Ev) :
    modEvsM (patch d v mt er a b c l) = modEvsM d := rfl

theorem patch_patch (d : Mon) (v v' : Nat → Bool) (mt er a b c mt' er' a' b' c' : Nat → Nat) (l l' : List Ev) :
    patch (patch d v mt er a b c l) v' mt' er' a' b' c' l' = patch d v' mt' er' a' b' c' l' := rfl

theorem checkFold (now : Nat) (is : List Nat) : ∀ (d : Mon) (b : Bool), ∃ v mt er a b' c,
    is.foldl (checkStep now) (d, b) =
      (patch d v mt er a b' c ((is.flatMap (modEvsM d)).reverse ++ d.s.node.log), b && is.all (okM d)) ∧
    (∀ i, v i = if i ∈ is then okM d i else d.s.sync.valid i) ∧
    (∀ i, mt i = if i ∈ is ∧ okM d i = true then now else d.s.sync.modTime i) := by
  induction is with
  | nil =>
    intro d b
    exact ⟨d.s.sync.valid, d.s.sync.modTime, d.s.sync.errRx, d.m.errRx, d.m.errTx, d.m.errData, by simp [patch], by simp, by simp⟩
  | cons i is ih =>
    intro d b
    rw [List.foldl_cons]
    obtain ⟨er, a, b', c, e⟩ := checkStep_eq now d b i
    rw [e]
    obtain ⟨v, mt, er1, a1, b1, c1, e1, h1, h2⟩ := ih
      (patch d (upd d.s.sync.valid i (okM d i)) (if okM d i then upd d.s.sync.modTime i now else d.s.sync.modTime) er a b' c
        (modEvsM d i ++ d.s.node.log)) (b && okM d i)
    rw [okM_patch, modEvsM_patch, patch_patch] at e1
    rw [okM_patch] at h1 h2
    refine ⟨v, mt, er1, a1, b1, c1, ?_, ?_, ?_⟩
    · rw [e1]
      have : (patch d (upd d.s.sync.valid i (okM d i)) (if okM d i then upd d.s.sync.modTime i now else d.s.sync.modTime) er a b' c
        (modEvsM d i ++ d.s.node.log)).s.node.log = modEvsM d i ++ d.s.node.log := rfl
      rw [this]
      have hr : (modEvsM d i).reverse = modEvsM d i := calls_reverse _
      simp only [List.flatMap_cons, List.reverse_append, List.append_assoc, List.all_cons, hr, Bool.and_assoc]
    · intro j
      rw [h1 j]
      by_cases hj : j ∈ is
      · simp [hj]
      · by_cases hji : j = i
        · subst hji; simp [hj, patch]
        · simp [hj, hji, patch, upd_other]
    · intro j
      rw [h2 j]
      by_cases hji : j = i
      · subst hji
        by_cases hj : j ∈ is
        · cases hk : okM d j <;> simp [hj, patch]
        · cases hk : okM d j <;> simp [hj, patch]
      · have : (patch d (upd d.s.sync.valid i (okM d i)) (if okM d i then upd d.s.sync.modTime i now else d.s.sync.modTime) er a b' c
          (modEvsM d i ++ d.s.node.log)).s.sync.modTime j = d.s.sync.modTime j := by
          unfold patch
          dsimp only
          split
          · rw [upd_other _ _ hji]
          · rfl
        rw [this]
        simp [hji]

/-- all modules valid? -/
def allOkM (d : Mon) : Bool := (List.range d.s.node.nrMod).all (okM d)

/-- the callbacks of one evaluation, oldest first -/
def imageEvsM (d : Mon) : List Ev :=
  (List.range d.s.node.nrMod).flatMap (modEvsM d) ++ (if allOkM d then calls d.s.sync.allCb else [])

/-- counters of the monitor cleared -/
def clearedRx (me : MonEnv) (d : Mon) : Nat → Nat → Nat :=
  fun i j => if i < me.maxMod ∧ j < (d.s.node.rows i).rxObjSync then 0 else d.m.rxCnt i j
def clearedTx (me : MonEnv) (d : Mon) : Nat → Nat → Nat :=
  fun i j => if i < me.maxMod ∧ j < (d.s.node.rows i).txObjSync then 0 else d.m.txCnt i j

theorem checkImage_eval (me : MonEnv) (d : Mon) (now : Nat) (h1 : d.s.sync.prFlag = 0xFFFF) (h1' : d.m.prFlag = 0xFFFF)
    (h2 : d.s.sync.prDlc ≤ 1) (h2' : d.m.prDlc ≤ 1) (h3 : d.s.sync.prCnt = 1) (h3' : d.m.prCnt = 1) :
    ∃ v mt er a b c tv, checkImage me d now =
      { s := { d.s with sync := { d.s.sync with valid := v, modTime := mt, errRx := er, timeValid := tv
                                                prCnt := 0, prFlag := 0, cnt := cleared me.toEnv d.s }
                        node := { d.s.node with log := (imageEvsM d).reverse ++ d.s.node.log } }
        m := { d.m with errRx := a, errTx := b, errData := c, prCnt := 0, prFlag := 0
                        rxCnt := clearedRx me d, txCnt := clearedTx me d } } ∧
      (∀ i, v i = if i < d.s.node.nrMod then okM d i else d.s.sync.valid i) ∧
      (∀ i, mt i = if i < d.s.node.nrMod ∧ okM d i = true then now else d.s.sync.modTime i) ∧
      tv = if allOkM d then now else d.s.sync.timeValid := by
  obtain ⟨v, mt, er, a, b, c, e, hv, hmt⟩ := checkFold now (List.range d.s.node.nrMod) d true
  refine ⟨v, mt, er, a, b, c, _, ?_, by simpa using hv, by simpa using hmt, rfl⟩
  unfold checkImage
  rw [if_pos ⟨h1, h1'⟩, if_neg (by omega), if_neg (by omega), if_neg (by omega), if_neg (by omega)]
  dsimp only
  rw [e]
  dsimp only
  rw [Bool.true_and]
  have : (List.range d.s.node.nrMod).all (okM d) = allOkM d := rfl
  rw [this]
  unfold imageEvsM
  cases allOkM d with
  | true =>
    rw [if_pos rfl, if_pos rfl, if_pos rfl]
    unfold clearImage Slave.clearImage Mon.callOpt Slave.callOpt patch clearedRx clearedTx cleared
    dsimp only
    cases hcb : d.s.sync.allCb with
    | none => simp [calls]
    | some k => simp [calls]
  | false =>
    rw [if_neg (by simp), if_neg (by simp), if_neg (by simp)]
    unfold clearImage Slave.clearImage patch clearedRx clearedTx cleared
    dsimp only
    simp

/-- after the flags of both controllers are set, `checkImage` clears, whatever the verdict -/
theorem checkImage_clears (me : MonEnv) (d : Mon) (now : Nat) (h1 : d.s.sync.prFlag = 0xFFFF) (h1' : d.m.prFlag = 0xFFFF) :
    let k := checkImage me d now
    k.s.sync.prFlag = 0 ∧ k.m.prFlag = 0 ∧ k.s.sync.prCnt = 0 ∧ k.m.prCnt = 0 ∧
    k.s.sync.cnt = cleared me.toEnv d.s ∧ k.m.rxCnt = clearedRx me d ∧ k.m.txCnt = clearedTx me d := by
  intro k
  have fin : ∀ x : Mon, x.s.node.rows = d.s.node.rows → x.s.sync.cnt = d.s.sync.cnt → x.m.rxCnt = d.m.rxCnt →
      x.m.txCnt = d.m.txCnt → k = clearImage me x →
      k.s.sync.prFlag = 0 ∧ k.m.prFlag = 0 ∧ k.s.sync.prCnt = 0 ∧ k.m.prCnt = 0 ∧
      k.s.sync.cnt = cleared me.toEnv d.s ∧ k.m.rxCnt = clearedRx me d ∧ k.m.txCnt = clearedTx me d := by
    intro x h1 h2 h3 h4 e
    rw [e]
    refine ⟨rfl, rfl, rfl, rfl, ?_, ?_, ?_⟩
    · unfold clearImage Slave.clearImage cleared; dsimp only; rw [h1, h2]
    · unfold clearImage clearedRx; dsimp only; rw [h1, h3]
    · unfold clearImage clearedTx; dsimp only; rw [h1, h4]
  obtain ⟨v, mt, er, a, b, c, e, -⟩ := checkFold now (List.range d.s.node.nrMod) d true
  have hk : k = checkImage me d now := rfl
  clear_value k
  unfold checkImage at hk
  rw [if_pos ⟨h1, h1'⟩] at hk
  split at hk
  · exact fin _ rfl rfl rfl rfl hk
  · split at hk
    · exact fin _ rfl rfl rfl rfl hk
    · split at hk
      · exact fin _ (by rfl) (by rfl) (by rfl) (by rfl) hk
      · split at hk
        · exact fin _ (by rfl) (by rfl) (by rfl) (by rfl) hk
        · dsimp only at hk
          rw [e] at hk
          dsimp only at hk
          split at hk
          · refine fin _ ?_ ?_ ?_ ?_ hk
            · unfold Mon.callOpt; dsimp only; rw [callOpt_node]; rfl
            · unfold Mon.callOpt; dsimp only; rw [callOpt_sync]; rfl
            · rfl
            · rfl
          · exact fin _ (by rfl) (by rfl) (by rfl) (by rfl) hk

/-- what an evaluation leaves alone -/
structure Kept (d k : Mon) : Prop where
  light : Light d.s.node k.s.node
  mem   : k.s.node.mem = d.s.node.mem
  link  : k.s.link = d.s.link
  sys   : k.s.sys = d.s.sys
  stamp : k.s.sync.stamp = d.s.sync.stamp
  first : k.s.sync.first = d.s.sync.first
  cycle : k.s.sync.cycle = d.s.sync.cycle
  wire  : SameWire d.m k.m
  rxMon : k.m.rxMon = d.m.rxMon
  txMon : k.m.txMon = d.m.txMon
  rxMonSync : k.m.rxMonSync = d.m.rxMonSync
  txMonSync : k.m.txMonSync = d.m.txMonSync
  mainTx : k.m.mainTx = d.m.mainTx
  monRx : k.m.monRx = d.m.monRx
  prDlc : k.s.sync.prDlc = d.s.sync.prDlc
  mprDlc : k.m.prDlc = d.m.prDlc
  rate : k.m.hwRate = d.m.hwRate
  drv : k.m.drv = d.m.drv

theorem Kept.refl (d : Mon) : Kept d d :=
  ⟨.refl _, rfl, rfl, rfl, rfl, rfl, rfl, .refl _, rfl, rfl, rfl, rfl, rfl, rfl, rfl, rfl, rfl, rfl⟩

theorem Kept.trans {a b c : Mon} (h : Kept a b) (g : Kept b c) : Kept a c :=
  ⟨h.1.trans g.1, g.2.trans h.2, g.3.trans h.3, g.4.trans h.4, g.5.trans h.5, g.6.trans h.6, g.7.trans h.7, h.8.trans g.8, g.9.trans h.9,
    g.10.trans h.10, g.11.trans h.11, g.12.trans h.12, g.13.trans h.13, g.14.trans h.14, g.15.trans h.15, g.16.trans h.16, g.17.trans h.17, g.18.trans h.18⟩

theorem kept_clear (me : MonEnv) (d : Mon) : Kept d (clearImage me d) :=
  ⟨⟨rfl, rfl, rfl, rfl, rfl, rfl, rfl, rfl⟩, rfl, rfl, rfl, rfl, rfl, rfl, ⟨rfl, rfl, rfl, rfl, rfl, rfl⟩, rfl, rfl, rfl, rfl, rfl, rfl, rfl, rfl, rfl, rfl⟩

theorem kept_patch (d : Mon) (v : Nat → Bool) (mt er a b c : Nat → Nat) (l : List Ev) : Kept d (patch d v mt er a b c l) :=
  ⟨⟨rfl, rfl, rfl, rfl, rfl, rfl, rfl, rfl⟩, rfl, rfl, rfl, rfl, rfl, rfl, ⟨rfl, rfl, rfl, rfl, rfl, rfl⟩, rfl, rfl, rfl, rfl, rfl, rfl, rfl, rfl, rfl, rfl⟩

theorem kept_call (d : Mon) (f : Option Nat) : Kept d (d.callOpt f) := by
  cases f <;>
  exact ⟨⟨rfl, rfl, rfl, rfl, rfl, rfl, rfl, rfl⟩, rfl, rfl, rfl, rfl, rfl, rfl, ⟨rfl, rfl, rfl, rfl, rfl, rfl⟩, rfl, rfl, rfl, rfl, rfl, rfl, rfl, rfl, rfl, rfl⟩

theorem checkImage_kept (me : MonEnv) (d : Mon) (now : Nat) : Kept d (checkImage me d now) := by
  obtain ⟨v, mt, er, a, b, c, e, -⟩ := checkFold now (List.range d.s.node.nrMod) d true
  unfold checkImage
  split
  · split
    · exact kept_clear ..
    · split
      · exact kept_clear ..
      · split
        · exact Kept.trans (by constructor <;> first | exact Light.refl _ | exact SameWire.refl _ | rfl) (kept_clear ..)
        · split
          · exact Kept.trans (by constructor <;> first | exact Light.refl _ | exact ⟨rfl, rfl, rfl, rfl, rfl, rfl⟩ | rfl) (kept_clear ..)
          · dsimp only
            rw [e]
            dsimp only
            have k1 := kept_patch d v mt er a b c (((List.range d.s.node.nrMod).flatMap (modEvsM d)).reverse ++ d.s.node.log)
            generalize patch d v mt er a b c (((List.range d.s.node.nrMod).flatMap (modEvsM d)).reverse ++ d.s.node.log) = x at *
            split
            · refine (k1.trans ?_).trans (kept_clear ..)
              refine Kept.trans ?_ (kept_call _ _)
              constructor <;> first | exact Light.refl _ | exact SameWire.refl _ | rfl
            · exact k1.trans (kept_clear ..)
  · exact .refl d

theorem checkImage_idle (me : MonEnv) (d : Mon) (now : Nat) (h : d.s.sync.prFlag = 0 ∨ d.m.prFlag = 0) :
    checkImage me d now = d := by
  unfold checkImage
  rw [if_neg]
  rcases h with h | h <;> rw [h] <;> intro ⟨a, b⟩
  · exact absurd a (by decide)
  · exact absurd b (by decide)

end Mon
end LiCan
