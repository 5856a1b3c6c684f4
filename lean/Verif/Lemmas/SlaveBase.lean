import Verif.Model.SlaveRun
import Verif.Lemmas.NodeHist
/-! # What each function of the slave leaves alone -/
namespace LiCan
open Node

/-- `n'` differs from `n` only in the log, the driver call counter, the error queue, the
application objects and the undefined-behaviour flag -/
structure Light (n n' : Node) : Prop where
  rows : n'.rows = n.rows
  silent : n'.silent = n.silent
  nrMod : n'.nrMod = n.nrMod
  ctrl : n'.ctrlObj = n.ctrlObj
  chg : n'.chg = n.chg
  hw : n'.hw = n.hw
  tx : n'.tx = n.tx
  slots : n'.slots = n.slots

theorem Light.refl (n : Node) : Light n n := ⟨rfl, rfl, rfl, rfl, rfl, rfl, rfl, rfl⟩
theorem Light.trans {a b c : Node} (h : Light a b) (g : Light b c) : Light a c :=
  ⟨g.rows.trans h.rows, g.silent.trans h.silent, g.nrMod.trans h.nrMod, g.ctrl.trans h.ctrl,
   g.chg.trans h.chg, g.hw.trans h.hw, g.tx.trans h.tx, g.slots.trans h.slots⟩

theorem Light.report (env : Env) (n : Node) (e : Err) : Light n (n.report env e) := by
  unfold Node.report; split <;> exact ⟨rfl, rfl, rfl, rfl, rfl, rfl, rfl, rfl⟩

theorem Light.send (env : Env) (n : Node) (f : Frame) : Light n (n.send env f).1 :=
  ⟨rfl, rfl, rfl, rfl, rfl, rfl, rfl, rfl⟩

theorem Light.sendSys (env : Env) (n : Node) (nr : Nat) (d : List Byte) : Light n (n.sendSys env nr d).1 := by
  unfold Node.sendSys; split
  · split
    · exact .send ..
    · exact .refl _
  · exact .refl _

theorem Light.callRx (env : Env) (n : Node) (c : Conv) (can : List Byte) (p d : Nat) :
    Light n (n.callRx env c can p d).1 := by
  unfold Node.callRx; split <;> exact ⟨rfl, rfl, rfl, rfl, rfl, rfl, rfl, rfl⟩

theorem Light.sendProcess {env : Env} {n n' : Node} (h : n.sendProcessData env = some n') : Light n n' := by
  refine sendRun_ind env (fun x => Light n x) ?_ 32 _ (Light.refl n) n' h
  intro x tp obj buf hx
  obtain ⟨q, l, k, u, e⟩ := sendOne_eq env x tp obj buf
  rw [e]; exact hx.trans ⟨rfl, rfl, rfl, rfl, rfl, rfl, rfl, rfl⟩

theorem Light.good {env : Env} {n n' : Node} {t : Spec.Table} (l : Light n n') (h : Good env n t) :
    Good env n' t :=
  h.of_same (h.sim.congr l.rows l.silent l.tx)
    ⟨l.hw, l.slots, l.ctrl, l.nrMod, l.chg, fun i => by rw [l.rows]⟩ rfl

namespace Slave

@[simp] theorem callOpt_sync (s : Slave) (f : Option Nat) : (s.callOpt f).sync = s.sync := by
  cases f <;> rfl
@[simp] theorem callOpt_link (s : Slave) (f : Option Nat) : (s.callOpt f).link = s.link := by
  cases f <;> rfl
@[simp] theorem callOpt_sys (s : Slave) (f : Option Nat) : (s.callOpt f).sys = s.sys := by
  cases f <;> rfl

/-- the effect of calling a registered function -/
def calls (f : Option Nat) : List Ev := (f.map Ev.call).toList

theorem callOpt_node (s : Slave) (f : Option Nat) :
    (s.callOpt f).node = { s.node with log := calls f ++ s.node.log } := by
  cases f <;> rfl

theorem calls_reverse (f : Option Nat) : (calls f).reverse = calls f := by cases f <;> rfl

theorem callOpt_light (s : Slave) (f : Option Nat) : Light s.node (s.callOpt f).node := by
  rw [callOpt_node]; exact ⟨rfl, rfl, rfl, rfl, rfl, rfl, rfl, rfl⟩

/-- the request callbacks -/
theorem reqFold (is : List Nat) : ∀ s : Slave,
    is.foldl (fun s i => s.callOpt (s.sync.reqCb i)) s =
      { s with node := { s.node with log := (is.flatMap fun i => calls (s.sync.reqCb i)).reverse ++ s.node.log } } := by
  induction is with
  | nil => intro s; rfl
  | cons i is ih =>
    intro s
    rw [List.foldl_cons, ih]
    have h1 := callOpt_node s (s.sync.reqCb i)
    have h2 := callOpt_sync s (s.sync.reqCb i)
    have h3 := callOpt_link s (s.sync.reqCb i)
    have h4 := callOpt_sys s (s.sync.reqCb i)
    generalize s.callOpt (s.sync.reqCb i) = s' at *
    cases s'; simp only at h1 h2 h3 h4; subst h1 h2 h3 h4
    simp [calls_reverse]

/-- the callbacks of one request, oldest first: the first-request callback (once), then the request
callbacks -/
def reqEvs (s : Slave) : List Ev :=
  (if s.sync.first then [] else calls s.sync.firstCb) ++
    (List.range s.node.nrMod).flatMap fun i => calls (s.sync.reqCb i)

theorem reqRx_eq (s : Slave) :
    reqRx s = { s with sync := { s.sync with first := true },
                       node := { s.node with log := (reqEvs s).reverse ++ s.node.log } } := by
  unfold reqRx reqEvs
  cases hf : s.sync.first with
  | true =>
    simp only [if_true, reqFold, List.nil_append]
    have : s.sync = { s.sync with first := true } := by rw [← hf]
    rw [← this]
  | false =>
    simp only [Bool.false_eq_true, if_false]
    generalize hs : (callOpt { node := s.node, sync := { s.sync with first := true }, link := s.link, sys := s.sys } s.sync.firstCb) = s'
    have h1 := callOpt_node { node := s.node, sync := { s.sync with first := true }, link := s.link, sys := s.sys } s.sync.firstCb
    have h2 := callOpt_sync { node := s.node, sync := { s.sync with first := true }, link := s.link, sys := s.sys } s.sync.firstCb
    have h3 := callOpt_link { node := s.node, sync := { s.sync with first := true }, link := s.link, sys := s.sys } s.sync.firstCb
    have h4 := callOpt_sys { node := s.node, sync := { s.sync with first := true }, link := s.link, sys := s.sys } s.sync.firstCb
    rw [hs] at h1 h2 h3 h4
    cases s'; simp only at h1 h2 h3 h4; subst h1 h2 h3 h4
    rw [reqFold]
    simp [calls_reverse]

/-- did every receive object of the row arrive exactly once, according to the counters? -/
def okMod (s : Slave) (i : Nat) : Bool :=
  (List.range (s.node.rows i).rxObjSync).all fun j => s.sync.cnt i j == 1

/-- the callback of one module at the evaluation -/
def modEvs (s : Slave) (i : Nat) : List Ev :=
  calls (if okMod s i then s.sync.validCb i else s.sync.invalidCb i)

/-- the image evaluation loop -/
theorem checkFold (now : Nat) (is : List Nat) : ∀ (s : Slave) (b : Bool),
    ∃ v mt er, is.foldl (checkStep now) (s, b) =
      ({ s with sync := { s.sync with valid := v, modTime := mt, errRx := er },
                node := { s.node with log := (is.flatMap (modEvs s)).reverse ++ s.node.log } },
       b && is.all (okMod s)) ∧
      (∀ i, v i = if i ∈ is then okMod s i else s.sync.valid i) ∧
      (∀ i, mt i = if i ∈ is ∧ okMod s i = true then now else s.sync.modTime i) ∧
      (∀ i, u16 (er i) = u16 (s.sync.errRx i + if okMod s i = true then 0 else is.count i)) := by
  induction is with
  | nil => intro s b; exact ⟨_, _, _, by simp; rfl, by simp, by simp, by simp⟩
  | cons i is ih =>
    intro s b
    rw [List.foldl_cons]
    cases hok : okMod s i with
    | true =>
      have hc : checkStep now (s, b) i =
          ({ s with sync := { s.sync with valid := upd s.sync.valid i true, modTime := upd s.sync.modTime i now },
                    node := { s.node with log := calls (s.sync.validCb i) ++ s.node.log } }, b) := by
        have hok' := hok
        unfold okMod at hok'
        simp only [checkStep, checkModule, hok', if_true, ne_eq, not_true, if_false]
        cases s.sync.validCb i <;> rfl
      rw [hc]
      obtain ⟨v, mt, er, e, h1, h2, h3⟩ := ih
        ({ s with sync := { s.sync with valid := upd s.sync.valid i true, modTime := upd s.sync.modTime i now },
                  node := { s.node with log := calls (s.sync.validCb i) ++ s.node.log } }) b
      have hm : (fun j => modEvs ({ s with sync := { s.sync with valid := upd s.sync.valid i true, modTime := upd s.sync.modTime i now }, node := { s.node with log := calls (s.sync.validCb i) ++ s.node.log } }) j) = modEvs s := rfl
      refine ⟨v, mt, er, ?_, ?_, ?_, ?_⟩
      · rw [e]
        have hev : modEvs s i = calls (s.sync.validCb i) := by simp [modEvs, hok]
        simp only [List.flatMap_cons, List.reverse_append, hev, calls_reverse, List.append_assoc, List.all_cons, hok, Bool.true_and]
        rfl
      · intro j
        rw [h1 j]
        by_cases hj : j ∈ is
        · simp only [hj, if_true, List.mem_cons, or_true]; rfl
        · by_cases hji : j = i
          · subst hji; simp [hj, upd, hok]
          · simp [hj, hji, upd]
      · intro j
        rw [h2 j]
        have hokj : okMod ({ s with sync := { s.sync with valid := upd s.sync.valid i true, modTime := upd s.sync.modTime i now }, node := { s.node with log := calls (s.sync.validCb i) ++ s.node.log } }) j = okMod s j := rfl
        rw [hokj]
        by_cases hji : j = i
        · subst hji; simp [upd, hok]
        · simp [hji, upd]
      · intro j
        rw [h3 j]
        have hokj : okMod ({ s with sync := { s.sync with valid := upd s.sync.valid i true, modTime := upd s.sync.modTime i now }, node := { s.node with log := calls (s.sync.validCb i) ++ s.node.log } }) j = okMod s j := rfl
        rw [hokj]
        by_cases hji : j = i
        · subst hji; simp [hok]
        · simp [List.count_cons, Ne.symm hji]
    | false =>
      have hc : checkStep now (s, b) i =
          ({ s with sync := { s.sync with valid := upd s.sync.valid i false, errRx := upd s.sync.errRx i (u16 (s.sync.errRx i + 1)) },
                    node := { s.node with log := calls (s.sync.invalidCb i) ++ s.node.log } }, false) := by
        have hok' := hok
        unfold okMod at hok'
        simp only [checkStep, checkModule, hok', Bool.false_eq_true, if_false]
        rw [if_pos (by decide)]
        cases s.sync.invalidCb i <;> rfl
      rw [hc]
      obtain ⟨v, mt, er, e, h1, h2, h3⟩ := ih
        ({ s with sync := { s.sync with valid := upd s.sync.valid i false, errRx := upd s.sync.errRx i (u16 (s.sync.errRx i + 1)) },
                  node := { s.node with log := calls (s.sync.invalidCb i) ++ s.node.log } }) false
      have hokj : ∀ j, okMod ({ s with sync := { s.sync with valid := upd s.sync.valid i false, errRx := upd s.sync.errRx i (u16 (s.sync.errRx i + 1)) }, node := { s.node with log := calls (s.sync.invalidCb i) ++ s.node.log } }) j = okMod s j := fun _ => rfl
      simp only [hokj] at h1 h2 h3
      refine ⟨v, mt, er, ?_, ?_, ?_, ?_⟩
      · rw [e]
        have hev : modEvs s i = calls (s.sync.invalidCb i) := by simp [modEvs, hok]
        simp only [List.flatMap_cons, List.reverse_append, hev, calls_reverse, List.append_assoc, List.all_cons, hok, Bool.false_and, Bool.and_false]
        rfl
      · intro j
        rw [h1 j]
        by_cases hj : j ∈ is
        · simp only [hj, if_true, List.mem_cons, or_true]
        · by_cases hji : j = i
          · subst hji; simp [hj, upd, hok]
          · simp [hj, hji, upd]
      · intro j
        rw [h2 j]
        by_cases hji : j = i
        · subst hji; simp [hok]
        · simp [hji]
      · intro j
        rw [h3 j]
        by_cases hji : j = i
        · subst hji; simp [hok, upd, u16]; omega
        · simp [List.count_cons, Ne.symm hji, upd, hji]

/-- all modules valid? -/
def allOk (s : Slave) : Bool := (List.range s.node.nrMod).all (okMod s)

/-- the callbacks of one evaluation, oldest first -/
def imageEvs (s : Slave) : List Ev :=
  (List.range s.node.nrMod).flatMap (modEvs s) ++ (if allOk s then calls s.sync.allCb else [])

/-- counters of the objects in use cleared -/
def cleared (env : Env) (s : Slave) : Nat → Nat → Nat :=
  fun i j => if i < env.maxMod ∧ j < (s.node.rows i).rxObjSync then 0 else s.sync.cnt i j

/-- `checkImage` when it evaluates -/
theorem checkImage_eval (env : Env) (s : Slave) (now : Nat) (h1 : s.sync.prFlag = 0xFFFF)
    (h2 : s.sync.prDlc ≤ 1) (h3 : s.sync.prCnt = 1) :
    ∃ v mt er, checkImage env s now =
      { s with sync := { s.sync with valid := v, modTime := mt, errRx := er,
                                     timeValid := if allOk s then now else s.sync.timeValid,
                                     prCnt := 0, prFlag := 0, cnt := cleared env s },
               node := { s.node with log := (imageEvs s).reverse ++ s.node.log } } ∧
      (∀ i, v i = if i < s.node.nrMod then okMod s i else s.sync.valid i) ∧
      (∀ i, mt i = if i < s.node.nrMod ∧ okMod s i = true then now else s.sync.modTime i) ∧
      (∀ i, u16 (er i) = u16 (s.sync.errRx i + if i < s.node.nrMod ∧ okMod s i = false then 1 else 0)) := by
  obtain ⟨v, mt, er, e, a, b, c⟩ := checkFold now (List.range s.node.nrMod) s true
  refine ⟨v, mt, er, ?_, by simpa using a, by simpa using b, ?_⟩
  · simp only [checkImage, h1, if_true, h3, ne_eq, not_true, if_false, e, Bool.true_and]
    rw [if_neg (by omega)]
    have : (List.range s.node.nrMod).all (okMod s) = allOk s := rfl
    rw [this]
    unfold imageEvs
    cases ha : allOk s with
    | true =>
      cases hcb : s.sync.allCb with
      | none => simp [callOpt, clearImage, calls]; rfl
      | some k => simp [callOpt, clearImage, calls]; rfl
    | false => simp [clearImage]; rfl
  · intro i
    rw [c i]
    cases hk : okMod s i with
    | true => simp
    | false => simp [List.count_range]

end Slave
end LiCan
