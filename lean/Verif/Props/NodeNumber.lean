import Verif.Props.NodeProcess
/-!
# Module number changes and re-initialisation: C28, C29, C53 – C55
-/
namespace LiCan
open Spec Node
namespace Node

theorem defineCtrl_keeps (env : Env) (n : Node) (idx nr : Nat) : Keeps n (defineCtrl env n idx nr).1 := by
  unfold defineCtrl
  split
  · exact .refl n
  · split
    · exact .refl n
    · next o ho =>
      obtain ⟨h1, h2⟩ := nextFree_some ho
      intro x hx
      have hxo : x ≠ o := by rintro rfl; rw [hx] at h2; cases h2
      rcases define_cases env { n with ctrlObj := upd n.ctrlObj idx o } o
        ⟨asyncCtrlRxId nr, 0x7FF#16, 8, .asyncCtrlRx⟩ h1 with ⟨_, e⟩ | ⟨_, e⟩ <;> rw [e] <;>
        simp only [upd, if_neg hxo] <;> exact ⟨hx, trivial⟩

theorem finishHw_keeps (env : Env) (n : Node) (idx nr : Nat) (nrs : List Nat) (hn2 : 10 < env.nObj) :
    KeepsF env n (finishHw env n idx nr nrs).1 := by
  rw [finishHw_eq]
  refine filters_ind env nrs (fun x => KeepsF env n x) hn2 ?_ _ (defineCtrl_keeps env n idx nr).f
  intro x o d hx ho _ _
  exact hx.trans (define_keepsF env x o d ho (by omega))

theorem setSilentAwake_txid (env : Env) (n : Node) (tp st : Nat) :
    (setSilentAwake env n tp st).1.tx.id = n.tx.id ∧ (setSilentAwake env n tp st).1.tx.dlc = n.tx.dlc := by
  unfold setSilentAwake
  split
  · simp only; split
    · obtain ⟨m, u, e⟩ := syncOff_eq env { n with silent := upd n.silent tp st, log := .silentCb tp (n.rows tp).nr st :: n.log } tp
      rw [e]; exact ⟨rfl, rfl⟩
    · split
      · rw [syncOn_eq]; exact ⟨rfl, rfl⟩
      · exact ⟨rfl, rfl⟩
  · exact ⟨rfl, rfl⟩

theorem setSilentAwake_silent (env : Env) (n : Node) (tp st : Nat) (htp : tp < env.maxMod) :
    (setSilentAwake env n tp st).1.silent = upd n.silent tp st := by
  unfold setSilentAwake
  rw [if_pos htp]
  simp only; split
  · obtain ⟨m, u, e⟩ := syncOff_eq env { n with silent := upd n.silent tp st, log := .silentCb tp (n.rows tp).nr st :: n.log } tp
    rw [e]
  · split
    · rw [syncOn_eq]
    · rfl

theorem pack {A P Q : Prop} (hP : P) (hQ : Q) : (A → P ∧ Q) ∧ P := ⟨fun _ => ⟨hP, hQ⟩, hP⟩

/-- new identifiers of the receive objects -/
theorem renumRx_spec (env : Env) (n : Node) (tp nr : Nat)
    (hlt : ∀ j < (n.rows tp).rxObj, (n.rows tp).rxMsgObj j < env.nObj)
    (hinj : ∀ j < (n.rows tp).rxObj, ∀ k < (n.rows tp).rxObj,
      (n.rows tp).rxMsgObj j = (n.rows tp).rxMsgObj k → j = k) :
    let r := renumRx env n tp nr
    (∃ hw, r.1 = { n with hw := hw } ∧ (∀ o, n.hw.used o = true → hw.used o = true) ∧
      (∀ o, (∀ j < (n.rows tp).rxObj, (n.rows tp).rxMsgObj j ≠ o) → hw.defs o = n.hw.defs o)) ∧
    (r.2 = E.ok → ∀ j < (n.rows tp).rxObj, r.1.hw.defs ((n.rows tp).rxMsgObj j) =
      some ⟨syncRxId nr j, 0x7FF#16, (n.rows tp).rxDlc j, .rx true⟩) := by
  intro r
  let W : Node → Prop := fun x => ∃ hw, x = { n with hw := hw } ∧ (∀ o, n.hw.used o = true → hw.used o = true) ∧
      (∀ o, (∀ j < (n.rows tp).rxObj, (n.rows tp).rxMsgObj j ≠ o) → hw.defs o = n.hw.defs o)
  have := forErr_all (f := fun i n => define env n ((n.rows tp).rxMsgObj i)
      ⟨syncRxId nr i, 0x7FF#16, (n.rows tp).rxDlc i, .rx true⟩)
    (fun k x => W x ∧ ∀ j < k, x.hw.defs ((n.rows tp).rxMsgObj j) =
      some ⟨syncRxId nr j, 0x7FF#16, (n.rows tp).rxDlc j, .rx true⟩) W (n.rows tp).rxObj ?_ ?_ n
    ⟨⟨n.hw, rfl, fun _ h => h, fun _ _ => rfl⟩, by omega⟩
  · exact ⟨this.1, fun e => (this.2 e).2⟩
  · rintro j hj x ⟨⟨hw, rfl, w1, w2⟩, w3⟩
    simp only at w3 ⊢
    rcases define_cases env { n with hw := hw } ((n.rows tp).rxMsgObj j)
      ⟨syncRxId nr j, 0x7FF#16, (n.rows tp).rxDlc j, .rx true⟩ (hlt j hj) with ⟨_, e⟩ | ⟨_, e⟩ <;> rw [e]
    · refine pack ⟨_, rfl, ?_, ?_⟩ ?_
      · intro o ho; simp only [upd]; split
        · rfl
        · exact w1 o ho
      · intro o ho
        simp only [upd]
        rw [if_neg (fun hh => ho j hj hh.symm)]
        exact w2 o ho
      · intro k hk
        simp only [upd]
        by_cases hkj : k = j
        · subst hkj; rw [if_pos rfl]
        · rw [if_neg (fun hh => hkj (hinj k (by omega) j hj hh))]
          exact w3 k (by omega)
    · refine ⟨fun h => absurd h (by simp), ⟨_, rfl, ?_, fun o ho => w2 o ho⟩⟩
      intro o ho; simp only [upd]; split
      · rfl
      · exact w1 o ho
  · exact fun x hx => hx.1

/-- what a number change does, whatever its result -/
theorem changeNr_spec (env : Env) (n : Node) (typ : List Byte) (nr act tp : Nat) (hn2 : 10 < env.nObj)
    (hf : n.findTypeNr env typ act = some tp) (h4 : (n.rows tp).txObj ≤ 4)
    (hlt : ∀ j < (n.rows tp).rxObj, (n.rows tp).rxMsgObj j < env.nObj ∧ n.hw.used ((n.rows tp).rxMsgObj j) = true ∧
      ¬ FilterObj env ((n.rows tp).rxMsgObj j))
    (hinj : ∀ j < (n.rows tp).rxObj, ∀ k < (n.rows tp).rxObj,
      (n.rows tp).rxMsgObj j = (n.rows tp).rxMsgObj k → j = k) :
    let r := changeNr env n typ nr act
    (∀ x, x ≠ tp → r.1.rows x = n.rows x) ∧
    core (r.1.rows tp) = core { n.rows tp with nr := nr } ∧
    (∀ x o, r.1.tx.id x o = if x = tp ∧ o < (n.rows tp).txObj then syncTxId nr o else n.tx.id x o) ∧
    (∀ o, n.hw.used o = true → ¬ FilterObj env o → (∀ j < (n.rows tp).rxObj, (n.rows tp).rxMsgObj j ≠ o) →
      r.1.hw.defs o = n.hw.defs o) ∧
    r.1.silent = n.silent ∧ r.1.slots = n.slots ∧
    (r.2 = E.ok → ∀ j < (n.rows tp).rxObj, r.1.hw.defs ((n.rows tp).rxMsgObj j) =
      some ⟨syncRxId nr j, 0x7FF#16, (n.rows tp).rxDlc j, .rx true⟩) := by
  intro r
  have hmax : tp < env.maxMod := by
    simp only [findTypeNr, List.find?_range_eq_some] at hf
    simpa using hf.2.1
  have hr : r = changeNr env n typ nr act := rfl
  simp only [changeNr, hf] at hr
  generalize hn1 : n.setRow tp (fun r => { r with nr := nr }) = n1 at hr
  have r1 : n1.rows = upd n.rows tp { n.rows tp with nr := nr } := by rw [← hn1]; rfl
  have o1 : n1.tx = n.tx ∧ n1.hw = n.hw ∧ n1.silent = n.silent ∧ n1.slots = n.slots := by
    rw [← hn1]; exact ⟨rfl, rfl, rfl, rfl⟩
  clear hn1
  have r1t : n1.rows tp = { n.rows tp with nr := nr } := by rw [r1, upd_same]
  rw [renumTx_eq env n1 tp nr hmax (by rw [r1t]; exact h4), thenOk_ok] at hr
  generalize hn2' : ({ n1 with tx := cnfgTx n1.tx (n1.rows tp).txDlc tp nr (n1.rows tp).txObj } : Node) = n2 at hr
  have o2 : n2.rows = n1.rows ∧ n2.hw = n.hw ∧ n2.silent = n.silent ∧ n2.slots = n.slots := by
    rw [← hn2']; exact ⟨rfl, o1.2.1, o1.2.2.1, o1.2.2.2⟩
  have t2 : ∀ x o, n2.tx.id x o = if x = tp ∧ o < (n.rows tp).txObj then syncTxId nr o else n.tx.id x o := by
    intro x o; rw [← hn2']; simp only [cnfgTx_id, r1t, o1.1]
  clear hn2'
  have r2t : n2.rows tp = { n.rows tp with nr := nr } := by rw [o2.1, r1t]
  have hx := renumRx_spec env n2 tp nr (by rw [r2t]; exact fun j hj => (hlt j hj).1) (by rw [r2t]; exact hinj)
  simp only [r2t] at hx
  generalize renumRx env n2 tp nr = q at hr hx
  obtain ⟨⟨hw, e, u1, u2⟩, hd⟩ := hx
  obtain ⟨n3, e3⟩ := q
  simp only at e hd
  subst e
  have w0 : (∀ x, x ≠ tp → n2.rows x = n.rows x) := by
    intro x hx; rw [o2.1, r1, upd_other _ _ hx]
  by_cases hok : e3 = E.ok
  · subst hok
    rw [thenOk_ok, finish_eq] at hr
    have hd := hd rfl
    generalize ((List.range ({ n2 with hw := hw } : Node).nrMod).map fun i => (({ n2 with hw := hw } : Node).rows i).nr) = nrs at hr
    have hk := finishHw_keeps env { n2 with hw := hw } tp nr nrs hn2
    obtain ⟨hw', u', c', s', e'⟩ := finishHw_hwOnly env { n2 with hw := hw } tp nr nrs
    have hsl : (finishHw env { n2 with hw := hw } tp nr nrs).1.slots = n2.slots := by
      rw [finishHw_eq]
      refine filters_ind env nrs (fun x => x.slots = n2.slots) hn2 ?_ _ ?_
      · intro x o d hx _ _ _
        obtain ⟨_, _, ee⟩ := define_eq env x o d; rw [ee]; exact hx
      · obtain ⟨_, _, _, ee⟩ := defineCtrl_eq env { n2 with hw := hw } tp nr; rw [ee]
    generalize finishHw env { n2 with hw := hw } tp nr nrs = p at hr hk e' hsl
    obtain ⟨n4, e4⟩ := p
    simp only at hk e' hsl
    have base : (∀ x, x ≠ tp → n4.rows x = n.rows x) ∧ core (n4.rows tp) = core { n.rows tp with nr := nr } ∧
        (∀ x o, n4.tx.id x o = if x = tp ∧ o < (n.rows tp).txObj then syncTxId nr o else n.tx.id x o) ∧
        (∀ o, n.hw.used o = true → ¬ FilterObj env o → (∀ j < (n.rows tp).rxObj, (n.rows tp).rxMsgObj j ≠ o) →
          n4.hw.defs o = n.hw.defs o) ∧
        n4.silent = n.silent ∧ n4.slots = n.slots ∧
        (∀ j < (n.rows tp).rxObj, n4.hw.defs ((n.rows tp).rxMsgObj j) =
          some ⟨syncRxId nr j, 0x7FF#16, (n.rows tp).rxDlc j, .rx true⟩) := by
      refine ⟨?_, ?_, ?_, ?_, ?_, ?_, ?_⟩
      · rw [e']; exact w0
      · rw [e']; simp only [r2t]
      · rw [e']; exact t2
      · intro o ho hfo hno
        rw [(hk o (by simp only; exact u1 o (by rw [o2.2.1]; exact ho))).2 hfo]
        simp only
        rw [u2 o hno, o2.2.1]
      · rw [e']; exact o2.2.2.1
      · rw [hsl]; exact o2.2.2.2
      · intro j hj
        have := hlt j hj
        rw [(hk _ (by simp only; exact u1 _ (by rw [o2.2.1]; exact this.2.1))).2 this.2.2]
        exact hd j hj
    have hno : r.1 = n4 ∨ r.1 = (setSilentAwake env n4 tp (n4.silent tp)).1 := by
      rw [hr]; unfold thenOk; split
      · exact .inr rfl
      · exact .inl rfl
    rcases hno with hh | hh
    · rw [hh]
      exact ⟨base.1, base.2.1, base.2.2.1, base.2.2.2.1, base.2.2.2.2.1, base.2.2.2.2.2.1, fun _ => base.2.2.2.2.2.2⟩
    · rw [hh]
      have hs := setSilentAwake_sameHw env n4 tp (n4.silent tp)
      refine ⟨?_, ?_, ?_, ?_, ?_, ?_, ?_⟩
      · intro x hx; rw [(setSilentAwake_except env n4 tp _).eq x hx]; exact base.1 x hx
      · rw [hs.core]; exact base.2.1
      · rw [(setSilentAwake_txid env n4 tp _).1]; exact base.2.2.1
      · rw [hs.hw]; exact base.2.2.2.1
      · rw [setSilentAwake_silent env n4 tp _ hmax, upd_self]; exact base.2.2.2.2.1
      · rw [hs.slots]; exact base.2.2.2.2.2.1
      · rw [hs.hw]; exact fun _ => base.2.2.2.2.2.2
  · rw [thenOk, if_neg hok] at hr
    rw [hr]
    refine ⟨w0, by simp only [r2t], t2, ?_, o2.2.2.1, o2.2.2.2, fun e => absurd e hok⟩
    intro o ho _ hno
    simp only
    rw [u2 o hno, o2.2.1]

/-- rows are found by type and number -/
theorem Reach.findTypeNr {env : Env} (he : EnvOk env) {n : Node} (h : Reach env n) {i : Nat}
    (hi : (n.rows i).typ ≠ []) : n.findTypeNr env (n.rows i).typ (n.rows i).nr = some i := by
  simp only [Node.findTypeNr, List.find?_range_eq_some]
  refine ⟨by simp, by simpa using (C05_capacity env he n h i hi).1, ?_⟩
  intro j hj
  simp only [Bool.not_eq_true', decide_eq_false_iff_not, not_and]
  intro e1 e2
  exact C04_numbers_distinct env he n h j i (by rw [e1]; exact hi) hi (by omega) e2

end Node

/-! ## C29 -/

/-- C29: in any state, for a registered pair of type and number, only that row changes. -/
theorem C29_only_that_row_partial (env : Env) (n : Node) (typ : List Byte) (nr act tp : Nat)
    (hf : n.findTypeNr env typ act = some tp) :
    ∀ x, x ≠ tp → (changeNr env n typ nr act).1.rows x = n.rows x := by
  have : RowsExcept tp n (changeNr env n typ nr act).1 := by
    simp only [changeNr, hf]
    refine thenOk_except ((setRow_except n tp _).trans (forErr_except ?_ _ _)) ?_
    · intro i x; exact .of_eq (txCnfg_rows ..)
    · intro x hx
      refine thenOk_except (hx.trans (forErr_except ?_ _ _)) ?_
      · intro i y; exact .of_eq (define_rows ..)
      · intro y hy; exact hy.trans (finish_except ..)
  exact this.eq

/-- C29: a number change of a completely configured module, answered with OK, gives all its
receive and transmit objects the identifiers of the new number, leaves its silent/awake state, and
changes no message object and no transmit identifier of another module. -/
theorem C29_renumbered (env : Env) (he : EnvOk env) (n : Node) (h : Reach env n) (i nr : Nat)
    (hi : (n.rows i).typ ≠ []) (hc : Configured n i) (hnr : 1 ≤ nr ∧ nr ≤ 128) :
    let r := changeNr env n (n.rows i).typ nr (n.rows i).nr
    (r.1.rows i).nr = nr ∧ (r.1.rows i).typ = (n.rows i).typ ∧ r.1.silent = n.silent ∧
    (∀ o < (n.rows i).txObj, r.1.tx.id i o = 0x400 + 4 * (nr - 1) + o) ∧
    (r.2 = E.ok → ∀ j < (n.rows i).rxObj, r.1.slotRow ((r.1.rows i).rxMsgObj j) = some i ∧
      r.1.hw.defs ((r.1.rows i).rxMsgObj j) =
        some ⟨0x200 + 4 * (nr - 1) + j, 0x7FF#16, (n.rows i).rxDlc j, .rx true⟩) ∧
    (∀ k, k ≠ i → r.1.rows k = n.rows k ∧ r.1.tx.id k = n.tx.id k ∧
      ((n.rows k).typ ≠ [] → Configured n k → ∀ j < (n.rows k).rxObj,
        r.1.hw.defs ((n.rows k).rxMsgObj j) = n.hw.defs ((n.rows k).rxMsgObj j))) ∧
    r.1.hw.defs 0 = n.hw.defs 0 := by
  intro r
  obtain ⟨t, hg, _⟩ := h.good he
  obtain ⟨m, hm, hrow⟩ := hg.sim.get hi
  have h4 : (n.rows i).txObj ≤ 4 := by rw [hrow.txObj]; exact hrow.tx4
  have asg : ∀ k, Configured n k → ∀ j < (n.rows k).rxObj, (n.rows k).rxMsgObj j < env.nObj ∧
      ¬ Fixed env ((n.rows k).rxMsgObj j) ∧ n.hw.used ((n.rows k).rxMsgObj j) = true := by
    intro k hk j hj
    exact hg.hw.asg ((n.rows k).rxMsgObj j) (by
      simp only [assigned, List.mem_append, List.mem_map]; exact .inl ⟨_, (hk.rx j hj).1, rfl⟩)
  have sp := changeNr_spec env n (n.rows i).typ nr (n.rows i).nr i he.o10 (h.findTypeNr he hi) h4
    (fun j hj => ⟨(asg i hc j hj).1, (asg i hc j hj).2.2, fun hf => (asg i hc j hj).2.1 hf.fixed⟩)
    (fun j hj k hk e => (C07_rx_objects_distinct env he n h i i j k hi hi hc hc hj hk e).2)
  obtain ⟨s1, s2, s3, s4, s5, s6, s7⟩ := sp
  have hcore := s2
  simp only [core, Row.mk.injEq] at hcore
  refine ⟨hcore.2.1, hcore.1, s5, ?_, ?_, ?_, ?_⟩
  · intro o ho
    show (changeNr env n (n.rows i).typ nr (n.rows i).nr).1.tx.id i o = _
    rw [s3, if_pos ⟨rfl, ho⟩, syncTxId, idOf_eq _ _ _ hnr.1 (by omega)]; omega
  · intro hok j hj
    have e1 : (r.1.rows i).rxMsgObj = (n.rows i).rxMsgObj := hcore.2.2.2.2.2.2.2.2.2.2.1
    rw [e1]
    refine ⟨?_, ?_⟩
    · have := (C08_configured_is_attributed env he n h i j hc hj).1
      unfold slotRow at this ⊢
      rw [s6]; exact this
    · have h4' := hrow.rx4
      rw [s7 hok j hj, syncRxId, idOf_eq _ _ _ hnr.1 (by omega)]
      congr 2; omega
  · intro k hk
    refine ⟨s1 k hk, ?_, ?_⟩
    · funext o
      show (changeNr env n (n.rows i).typ nr (n.rows i).nr).1.tx.id k o = _
      rw [s3, if_neg (by simp [hk])]
    · intro hkt hkc j hj
      apply s4 _ (asg k hkc j hj).2.2 (fun hf => (asg k hkc j hj).2.1 hf.fixed)
      intro j' hj' e
      exact hk (C07_rx_objects_distinct env he n h i k j' j hi hkt hc hkc hj' hj e).1.symm
  · apply s4 0 (hg.hw.fixed 0 (.inl rfl))
    · unfold FilterObj; omega
    · intro j hj e
      exact (asg i hc j hj).2.1 (.inl e)

/-- number 5 becomes 6: receive objects 0x214, 0x215, transmit objects 0x414, 0x415 -/
example :
    let n := Node.run exEnv (exInit exEnv) exOps
    let r := changeNr exEnv n (n.rows 0).typ 6 (n.rows 0).nr
    (n.rows 0).typ ≠ [] ∧ r.2 = E.ok ∧ r.1.hw.defs 4 = some ⟨0x215, 0x7FF#16, 2, .rx true⟩ ∧
    r.1.tx.id 0 1 = 0x415 ∧ r.1.tx.id 1 0 = 0x420 := by decide +kernel

example : Configured (Node.run exEnv (exInit exEnv) exOps) 0 :=
  C06_history_partial exEnv exEnv_ok (fun _ => rfl) exMem exOps (by decide +kernel)
    (by simp [exOps, Basic, StateOk, exTpl]) (by decide) 0 (by decide +kernel)

/-- C29 is false for every unregistered pair of type and number: line 1795 then writes the new
number behind the table. -/
theorem C29_counterexample (env : Env) (n : Node) (typ : List Byte) (nr act : Nat)
    (h : ∀ i < env.maxMod, ¬ ((n.rows i).typ = typ ∧ (n.rows i).nr = act)) :
    (changeNr env n typ nr act).1.ub = true := by
  have : n.findTypeNr env typ act = none := by
    rw [findTypeNr, List.find?_eq_none]
    intro i hi; simp only [List.mem_range] at hi; simpa using h i hi
  simp only [changeNr, this]

example : ∀ i < exEnv.maxMod, ¬ (((Node.run exEnv (exInit exEnv) exOps).rows i).typ = [77, 68, 65] ∧
    ((Node.run exEnv (exInit exEnv) exOps).rows i).nr = 77) := by decide +kernel

/-! ## C28 -/

/-- C28: if the voter answers anything but VALID or VALID_BUT_SET_SILENT, nothing changes and the
caller gets CHANGING_TO_INVALID_MODULE_NR. -/
theorem C28_refused (env : Env) (n : Node) (tp nr : Nat) (v : List Byte → Nat → Nat → Vote)
    (hv : env.voter = some v) (h1 : v (n.rows tp).typ nr (n.rows tp).nr ≠ .valid)
    (h2 : v (n.rows tp).typ nr (n.rows tp).nr ≠ .validButSilent) :
    changeModuleNr env n tp nr = (n, E.changingToInvalidNr) := by
  simp only [changeModuleNr, hv]

/-- C28: if the voter agrees and the change succeeds, the module has the new number and is awake
(VALID) resp. silent (VALID_BUT_SET_SILENT); no other row changes. -/
theorem C28_accepted (env : Env) (he : EnvOk env) (n : Node) (h : Reach env n) (tp nr : Nat)
    (hreg : (n.rows tp).typ ≠ []) (v : List Byte → Nat → Nat → Vote) (hv : env.voter = some v) (st : Nat)
    (hvote : (v (n.rows tp).typ nr (n.rows tp).nr = .valid ∧ st = 1) ∨
      (v (n.rows tp).typ nr (n.rows tp).nr = .validButSilent ∧ st = 0))
    (hc : Configured n tp) (hok : (changeModuleNr env n tp nr).2 = E.ok) :
    let n' := (changeModuleNr env n tp nr).1
    (n'.rows tp).nr = nr ∧ n'.silent tp = st ∧ (∀ x, x ≠ tp → n'.rows x = n.rows x) ∧
    (n'.rows tp).txObjSync = (if st = 1 then (n'.rows tp).txObj else 0) := by
  intro n'
  have hcap := (C05_capacity env he n h tp hreg).1
  have hcm : changeModuleNr env n tp nr =
      thenOk (changeNr env n (n.rows tp).typ nr (n.rows tp).nr) fun n => setSilentAwake env n tp st := by
    simp only [changeModuleNr, hv]
    rcases hvote with ⟨hx, rfl⟩ | ⟨hx, rfl⟩ <;> simp only [hx]
  have hn' : n' = (changeModuleNr env n tp nr).1 := rfl
  rw [hcm] at hok hn'
  by_cases hcn : (changeNr env n (n.rows tp).typ nr (n.rows tp).nr).2 = E.ok
  · rw [thenOk, if_pos hcn] at hn'
    have honly := C29_only_that_row_partial env n (n.rows tp).typ nr (n.rows tp).nr tp (h.findTypeNr he hreg)
    obtain ⟨t, hg, _⟩ := h.good he
    obtain ⟨m, hm, hrow⟩ := hg.sim.get hreg
    have asg : ∀ j < (n.rows tp).rxObj, (n.rows tp).rxMsgObj j < env.nObj ∧
        ¬ Fixed env ((n.rows tp).rxMsgObj j) ∧ n.hw.used ((n.rows tp).rxMsgObj j) = true := by
      intro j hj
      exact hg.hw.asg ((n.rows tp).rxMsgObj j) (by
        simp only [assigned, List.mem_append, List.mem_map]; exact .inl ⟨_, (hc.rx j hj).1, rfl⟩)
    have sp := changeNr_spec env n (n.rows tp).typ nr (n.rows tp).nr tp he.o10 (h.findTypeNr he hreg)
      (by rw [hrow.txObj]; exact hrow.tx4)
      (fun j hj => ⟨(asg j hj).1, (asg j hj).2.2, fun hf => (asg j hj).2.1 hf.fixed⟩)
      (fun j hj k hk e => (C07_rx_objects_distinct env he n h tp tp j k hreg hreg hc hc hj hk e).2)
    have hs := setSilentAwake_sameHw env (changeNr env n (n.rows tp).typ nr (n.rows tp).nr).1 tp st
    refine ⟨?_, ?_, ?_, ?_⟩
    · rw [hn', (hs.fields tp).2.1]
      have := sp.2.1
      simp only [core, Row.mk.injEq] at this
      exact this.2.1
    · rw [hn', setSilentAwake_silent _ _ _ _ hcap, upd_same]
    · intro x hx
      rw [hn', (setSilentAwake_except env _ tp st).eq x hx]; exact honly x hx
    · rw [hn']
      unfold setSilentAwake
      rw [if_pos hcap]
      rcases hvote with ⟨_, rfl⟩ | ⟨_, rfl⟩
      · simp only [Nat.one_ne_zero, if_false, if_true]
        rw [syncOn_eq]; simp [onRow]
      · simp only [if_true]
        generalize (changeNr env n (n.rows tp).typ nr (n.rows tp).nr).1 = y
        obtain ⟨mm, u, e⟩ := syncOff_eq env { y with silent := upd y.silent tp 0, log := .silentCb tp (y.rows tp).nr 0 :: y.log } tp
        rw [e]; simp [offRow]
  · rw [thenOk, if_neg hcn] at hok
    exact absurd hok hcn

/-- C28: without a voter every number change is carried out. -/
theorem C28_no_voter (env : Env) (n : Node) (tp nr : Nat) (hv : env.voter = none) :
    changeModuleNr env n tp nr = changeNr env n (n.rows tp).typ nr (n.rows tp).nr := by
  simp only [changeModuleNr, hv]

/-- a voter that accepts even numbers only, silently -/
example :
    let env := { exEnv with voter := some fun _ nr _ => if nr % 2 = 0 then .validButSilent else .forbidden }
    let n := Node.run env (exInit env) exOps
    (changeModuleNr env n 0 6).2 = E.ok ∧ (changeModuleNr env n 0 6).1.silent 0 = 0 ∧
    ((changeModuleNr env n 0 6).1.rows 0).nr = 6 ∧
    (changeModuleNr env n 0 7).2 = E.changingToInvalidNr := by decide +kernel

/-! ## C53: numbers after a number change -/

/-- C53 (the provable part): a number change to a number no other registered module has keeps all
numbers different.  Missing: the code does not check this, see `C53_counterexample`. -/
theorem C53_distinct_after_change_partial (env : Env) (he : EnvOk env) (n : Node) (h : Reach env n)
    (tp nr : Nat) (hreg : (n.rows tp).typ ≠ []) (hc : Configured n tp)
    (hnew : ∀ x, x ≠ tp → (n.rows x).typ ≠ [] → (n.rows x).nr ≠ nr) (i j : Nat)
    (hi : (n.rows i).typ ≠ []) (hj : (n.rows j).typ ≠ []) (hij : i ≠ j) (hnr : 1 ≤ nr ∧ nr ≤ 128) :
    let n' := (changeNr env n (n.rows tp).typ nr (n.rows tp).nr).1
    (n'.rows i).nr ≠ (n'.rows j).nr := by
  intro n'
  have sp := C29_renumbered env he n h tp nr hreg hc hnr
  simp only at sp
  have other : ∀ x, x ≠ tp → (n'.rows x).nr = (n.rows x).nr := fun x hx => by rw [(sp.2.2.2.2.2.1 x hx).1]
  have self : (n'.rows tp).nr = nr := sp.1
  by_cases e1 : i = tp
  · subst e1
    rw [self, other j (fun e => hij e.symm)]
    exact fun e => hnew j (fun e => hij e.symm) hj e.symm
  · by_cases e2 : j = tp
    · subst e2
      rw [self, other i e1]; exact hnew i e1 hi
    · rw [other i e1, other j e2]
      exact C04_numbers_distinct env he n h i j hi hj hij

/-- C53, exactly: after a number change the numbers of the registered modules are all different if and only if no
other registered module has the new number. -/
theorem C53_distinct_iff (env : Env) (he : EnvOk env) (n : Node) (h : Reach env n)
    (tp nr : Nat) (hreg : (n.rows tp).typ ≠ []) (hc : Configured n tp) (hnr : 1 ≤ nr ∧ nr ≤ 128) :
    let n' := (changeNr env n (n.rows tp).typ nr (n.rows tp).nr).1
    (∀ i j, (n'.rows i).typ ≠ [] → (n'.rows j).typ ≠ [] → i ≠ j → (n'.rows i).nr ≠ (n'.rows j).nr) ↔
      ∀ x, x ≠ tp → (n.rows x).typ ≠ [] → (n.rows x).nr ≠ nr := by
  intro n'
  have sp := C29_renumbered env he n h tp nr hreg hc hnr
  simp only at sp
  have other : ∀ x, x ≠ tp → n'.rows x = n.rows x := fun x hx => (sp.2.2.2.2.2.1 x hx).1
  have typ : ∀ x, (n'.rows x).typ = (n.rows x).typ := by
    intro x
    by_cases e : x = tp
    · subst e; exact sp.2.1
    · rw [other x e]
  constructor
  · intro hd x hx hreg' e
    refine hd x tp (by rw [typ]; exact hreg') (by rw [typ]; exact hreg) hx ?_
    rw [other x hx, e]; exact sp.1.symm
  · intro hnew i j hi hj hij
    rw [typ] at hi hj
    exact C53_distinct_after_change_partial env he n h tp nr hreg hc hnew i j hi hj hij hnr

example : ((Node.run exEnv (exInit exEnv) exOps).rows 0).typ ≠ [] ∧
    (∃ x, x ≠ 0 ∧ ((Node.run exEnv (exInit exEnv) exOps).rows x).typ ≠ [] ∧
      ((Node.run exEnv (exInit exEnv) exOps).rows x).nr = 9) ∧
    ∀ x < 2, ((Node.run exEnv (exInit exEnv) exOps).rows x).nr ≠ 20 := by
  refine ⟨by decide +kernel, ⟨1, by decide +kernel⟩, by decide +kernel⟩

/-- C53 is false: the number of module 1 can be given to module 0; the answer is OK, and both
then transmit with the same identifiers. -/
theorem C53_counterexample :
    let n := Node.run exEnv (exInit exEnv) exOps
    let r := changeModuleNr exEnv n 0 9
    Reach exEnv n ∧ r.2 = E.ok ∧ (r.1.rows 0).nr = 9 ∧ (r.1.rows 1).nr = 9 ∧
    r.1.tx.id 0 0 = r.1.tx.id 1 0 := by
  refine ⟨exReach exOps exOps_basic, ?_⟩
  decide +kernel

/-! ## C54: the process request -/

/-- C54 (the provable part): no registration and no silent/awake, active or critical request
changes the message object that receives process requests.  (For number changes of completely
configured modules see the last clause of `C29_renumbered`.) -/
theorem C54_process_request_object_partial (env : Env) (he : EnvOk env) (mem : Nat → List Byte)
    (ops : List Op) (hok : (Node.init env (boot mem)).2 = E.ok) (hb : ∀ o ∈ ops, Basic o) :
    (Node.run env (Node.init env (boot mem)).1 ops).hw.defs 0 =
      (Node.init env (boot mem)).1.hw.defs 0 := by
  have aux : ∀ (ops : List Op) (n : Node), (∀ o ∈ ops, Basic o) → Reach env n →
      (Node.run env n ops).hw.defs 0 = n.hw.defs 0 := by
    intro ops
    induction ops with
    | nil => exact fun _ _ _ => rfl
    | cons o os ih =>
      intro n hb hr
      have hs := hr.step o (hb o (by simp))
      obtain ⟨t, hg, _⟩ := hr.good he
      rw [Node.run, ih _ (fun x hx => hb x (by simp [hx])) hs]
      exact (C07_never_reprogrammed env he n hr o (hb o (by simp)) 0 (hg.hw.fixed 0 (.inl rfl))).2
        (by omega) (by omega) (by omega)
  exact aux ops _ hb ⟨mem, [], hok, by simp, rfl⟩

example : (exInit exEnv).hw.defs 0 = some ⟨0x001, 0x7FF#16, 1, .rx false⟩ := by decide +kernel

/-- C54 is false: the second module could not be configured completely (eleven message objects),
its receive object 1 has message object 0.  A change of its number reprograms that object: it no
longer receives process requests (identifier 1) but frames of the module (identifier 0x225). -/
theorem C54_counterexample :
    let n := Node.run exSmall (exInit exSmall)
      [.add (exTpl 65 4 1) 5 (fun _ => 1) (fun _ => 2), .add (exTpl 66 2 1) 9 (fun _ => 3) (fun _ => 4)]
    let r := changeModuleNr exSmall n 1 10
    Reach exSmall n ∧ n.hw.defs 0 = some ⟨0x001, 0x7FF#16, 1, .rx false⟩ ∧
    r.1.hw.defs 0 = some ⟨0x225, 0x7FF#16, 2, .rx true⟩ := by
  refine ⟨exReachSmall _ (by simp [Basic, exTpl]), ?_⟩
  decide +kernel

/-! ## C55: initialising again -/

/-- C55 (the provable part): initialisation of a node that has not been used starts clean: no
module, nothing to send, no receive slot, exactly the reserved message objects in use.  Missing: a
second `lcsa_init` does not, see `C55_counterexample`. -/
theorem C55_init_clean_partial (env : Env) (he : EnvOk env) (mem : Nat → List Byte)
    (hok : (Node.init env (boot mem)).2 = E.ok) :
    let n := (Node.init env (boot mem)).1
    (∀ i, (n.rows i).typ = []) ∧ n.tx.reg = 0 ∧ n.slots = [] ∧ n.nrMod = 0 ∧
    (∀ o < env.nObj, n.hw.used o = true ↔ (o = 0 ∨ o = 2 ∨ (o = 3 ∧ env.sysObj2 = true) ∨ o = 6 ∨ o = 10)) := by
  intro n
  obtain ⟨a1, a2, a3, a4, a5, a6, a7, _, a8, a9, a10, _⟩ := init_state env he (boot mem) hok
  refine ⟨?_, by show (Node.init env (boot mem)).1.tx.reg = 0; rw [a6]; rfl, a1, a2, a8⟩
  intro i
  by_cases hi : i < env.maxMod
  · show ((Node.init env (boot mem)).1.rows i).typ = []; rw [a9 i hi]
  · show ((Node.init env (boot mem)).1.rows i).typ = []; rw [a10 i (by omega)]; rfl

/-- C55 is false: after a second initialisation (no module registered) a process request still
transmits the frames of the two modules registered before, and message object 1 is still
attributed to row 0. -/
theorem C55_counterexample :
    let n := (Node.init exEnv (Node.run exEnv (exInit exEnv) exOps)).1
    (∀ i < exEnv.maxMod, (n.rows i).typ = []) ∧ n.slotRow 1 = some 0 ∧
    (sendProcessData exEnv n).map (fun n' => (n'.log.take 5).filterMap frameOf |>.map (·.id)) =
      some [0x422, 0x421, 0x420, 0x411, 0x410] := by
  decide +kernel

end LiCan
