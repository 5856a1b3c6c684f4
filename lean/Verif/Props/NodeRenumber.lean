import Verif.Props.NodeNumber
/-!
# Repeated number changes: C99

Every change of a module number takes another message object of the CAN controller for the control messages
(io_can_config.c:1886, 2477-2495) and never gives one back.
-/
namespace LiCan
namespace Spec

/-- the message objects of the controller which are not yet in use -/
def unused (env : Env) (n : Node) : List Nat := (List.range env.nObj).filter fun o => !n.hw.used o

/-- `can_config_change_module_nr` for a list of table positions and new numbers: state and results -/
def renumber (env : Env) (n : Node) : List (Nat × Nat) → Node × List Err
  | [] => (n, [])
  | c :: cs =>
    let r := Node.changeModuleNr env n c.1 c.2
    let q := renumber env r.1 cs
    (q.1, r.2 :: q.2)

/-- the application accepts every number -/
def VoterAccepts (env : Env) : Prop :=
  ∀ v, env.voter = some v → ∀ typ nr act, v typ nr act = .valid ∨ v typ nr act = .validButSilent

end Spec
open Spec Node
namespace Node

/-- the message objects of the registered modules -/
structure Placed (env : Env) (n : Node) : Prop where
  tx4 : ∀ i < env.maxMod, (n.rows i).typ ≠ [] → (n.rows i).txObj ≤ 4
  st  : ∀ i < env.maxMod, (n.rows i).typ ≠ [] → n.silent i = 0 ∨ n.silent i = 1
  fx  : ∀ o, Fixed env o → n.hw.used o = true
  rx  : ∀ i < env.maxMod, (n.rows i).typ ≠ [] → ∀ j < (n.rows i).rxObj,
    (n.rows i).rxMsgObj j < env.nObj ∧ n.hw.used ((n.rows i).rxMsgObj j) = true

theorem freeCnt_unused (env : Env) (n : Node) : freeCnt env n = (unused env n).length := rfl

theorem nextFree_none {env : Env} {n : Node} (h : freeCnt env n = 0) : n.nextFree env = none := by
  cases hx : n.nextFree env with
  | none => rfl
  | some o =>
    obtain ⟨h1, h2⟩ := nextFree_some hx
    have : o ∈ (List.range env.nObj).filter fun o => !n.hw.used o := by simp [h1, h2]
    have := List.length_pos_of_mem this
    unfold freeCnt at h
    omega

theorem define_usedEq (env : Env) (n : Node) (o : Nat) (d : ObjDef) (ho : o < env.nObj)
    (h : n.hw.used o = true) : (define env n o d).1.hw.used = n.hw.used := by
  have e : upd n.hw.used o true = n.hw.used := by rw [← h]; exact upd_self _ _
  rcases define_cases env n o d ho with ⟨_, h⟩ | ⟨_, h⟩ <;> rw [h] <;> exact e

theorem renumRx_used (env : Env) (n : Node) (tp nr : Nat) (hhw : ∀ k, env.hwOk k = true)
    (h : ∀ j < (n.rows tp).rxObj, (n.rows tp).rxMsgObj j < env.nObj ∧ n.hw.used ((n.rows tp).rxMsgObj j) = true) :
    (renumRx env n tp nr).2 = E.ok ∧ ∃ hw u, (renumRx env n tp nr).1 = { n with hw := hw, ub := u } ∧ hw.used = n.hw.used := by
  refine forErr_ok (fun _ x => ∃ hw u, x = { n with hw := hw, ub := u } ∧ hw.used = n.hw.used) _ ?_ n ⟨n.hw, n.ub, rfl, rfl⟩
  rintro j hj x ⟨hw, u, rfl, hu⟩
  dsimp only
  obtain ⟨h1, h2⟩ := h j hj
  refine ⟨define_ok _ _ _ _ hhw h1, ?_⟩
  obtain ⟨hw', u', e⟩ := define_eq env { n with hw := hw, ub := u } ((n.rows tp).rxMsgObj j)
    ⟨syncRxId nr j, 0x7FF#16, (n.rows tp).rxDlc j, .rx true⟩
  have e2 := define_usedEq env { n with hw := hw, ub := u } ((n.rows tp).rxMsgObj j)
    ⟨syncRxId nr j, 0x7FF#16, (n.rows tp).rxDlc j, .rx true⟩ h1 (by dsimp only; rw [hu]; exact h2)
  rw [e] at e2 ⊢
  exact ⟨hw', u', rfl, by rw [← hu]; exact e2⟩

/-- what a number change keeps -/
structure Kin (n n' : Node) : Prop where
  row : ∀ i, (n'.rows i).typ = (n.rows i).typ ∧ (n'.rows i).txObj = (n.rows i).txObj ∧
    (n'.rows i).rxObj = (n.rows i).rxObj ∧ (n'.rows i).rxMsgObj = (n.rows i).rxMsgObj
  used : ∀ o, n.hw.used o = true → n'.hw.used o = true

theorem Kin.refl (n : Node) : Kin n n := ⟨fun _ => ⟨rfl, rfl, rfl, rfl⟩, fun _ h => h⟩
theorem Kin.trans {a b c : Node} (h : Kin a b) (h' : Kin b c) : Kin a c :=
  ⟨fun i => by obtain ⟨a1, a2, a3, a4⟩ := h.row i; obtain ⟨b1, b2, b3, b4⟩ := h'.row i
               exact ⟨b1.trans a1, b2.trans a2, b3.trans a3, b4.trans a4⟩,
   fun o ho => h'.used o (h.used o ho)⟩
theorem Kin.same {n n' : Node} (s : SameHw n n') : Kin n n' := by
  refine ⟨fun i => ?_, fun o ho => by rw [s.hw]; exact ho⟩
  have := s.core i
  simp only [core, Row.mk.injEq] at this
  exact ⟨this.1, by grind, by grind, by grind⟩

theorem Placed.kin {env : Env} {n n' : Node} (h : Placed env n) (k : Kin n n')
    (hs : ∀ i < env.maxMod, (n.rows i).typ ≠ [] → n'.silent i = 0 ∨ n'.silent i = 1) : Placed env n' := by
  refine ⟨?_, ?_, fun o ho => k.used o (h.fx o ho), ?_⟩
  · intro i hi ht
    obtain ⟨a, b, _, _⟩ := k.row i
    rw [b]; exact h.tx4 i hi (by rw [← a]; exact ht)
  · intro i hi ht
    exact hs i hi (by rw [← (k.row i).1]; exact ht)
  · intro i hi ht j hj
    obtain ⟨a, _, c, d⟩ := k.row i
    rw [d]
    obtain ⟨u, v⟩ := h.rx i hi (by rw [← a]; exact ht) j (by rw [← c]; exact hj)
    exact ⟨u, k.used _ v⟩

theorem changeNr_free (env : Env) (he : EnvOk env) (hhw : ∀ k, env.hwOk k = true) (n : Node) (h : Placed env n)
    (typ : List Byte) (nr act tp : Nat) (hf : n.findTypeNr env typ act = some tp) (ht : (n.rows tp).typ ≠ []) :
    let r := changeNr env n typ nr act
    Kin n r.1 ∧ r.1.silent = n.silent ∧
    (0 < freeCnt env n → r.2 = E.ok ∧ freeCnt env r.1 + 1 = freeCnt env n) ∧
    (freeCnt env n = 0 → r.2 = E.noMsgObjFree ∧ freeCnt env r.1 = 0) := by
  intro r
  have hmax : tp < env.maxMod := by
    simp only [findTypeNr, List.find?_range_eq_some] at hf
    simpa using hf.2.1
  have hr : r = changeNr env n typ nr act := rfl
  simp only [changeNr, hf] at hr
  generalize hn1 : n.setRow tp (fun r => { r with nr := nr }) = n1 at hr
  have k1 : Kin n n1 := by
    rw [← hn1]
    refine ⟨fun i => ?_, fun o ho => ho⟩
    by_cases e : i = tp
    · subst e; simp [setRow]
    · simp [setRow, upd_other _ _ e]
  have s1 : n1.silent = n.silent := by rw [← hn1]; rfl
  have u1 : n1.hw = n.hw := by rw [← hn1]; rfl
  clear hn1
  rw [renumTx_eq env n1 tp nr hmax (by rw [(k1.row tp).2.1]; exact h.tx4 tp hmax ht), thenOk_ok] at hr
  generalize hn2 : ({ n1 with tx := cnfgTx n1.tx (n1.rows tp).txDlc tp nr (n1.rows tp).txObj } : Node) = n2 at hr
  have k2 : Kin n n2 := by
    refine k1.trans ?_
    rw [← hn2]; exact ⟨fun _ => ⟨rfl, rfl, rfl, rfl⟩, fun _ h => h⟩
  have s2 : n2.silent = n.silent := by rw [← hn2]; exact s1
  have u2 : n2.hw.used = n.hw.used := by rw [← hn2]; rw [← u1]
  clear hn2 k1 s1 u1
  obtain ⟨hok, hw, u, e, hu⟩ := renumRx_used env n2 tp nr hhw (by
    intro j hj
    obtain ⟨_, _, c, d⟩ := k2.row tp
    rw [d, u2]
    exact h.rx tp hmax ht j (by rw [← c]; exact hj))
  generalize renumRx env n2 tp nr = q at hr hok e
  obtain ⟨n3, e3⟩ := q
  dsimp only at hok e
  subst hok
  have k3 : Kin n n3 := by
    refine k2.trans ?_
    rw [e]; exact ⟨fun _ => ⟨rfl, rfl, rfl, rfl⟩, fun o ho => by dsimp only; rw [hu]; exact ho⟩
  have s3 : n3.silent = n.silent := by rw [e]; exact s2
  have u3 : n3.hw.used = n.hw.used := by rw [e]; exact hu.trans u2
  clear e hu
  rw [thenOk_ok, finish_eq] at hr
  generalize ((List.range n3.nrMod).map fun i => (n3.rows i).nr) = nrs at hr
  have kp := finishHw_keeps env n3 tp nr nrs he.o10
  obtain ⟨hw', u', c', s', e'⟩ := finishHw_hwOnly env n3 tp nr nrs
  have k4 : Kin n (finishHw env n3 tp nr nrs).1 := by
    refine k3.trans ⟨fun i => ?_, fun o ho => (kp o ho).1⟩
    rw [e']; exact ⟨rfl, rfl, rfl, rfl⟩
  have s4 : (finishHw env n3 tp nr nrs).1.silent = n.silent := by rw [e']; exact s3
  have fx3 : ∀ o, Fixed env o → n3.hw.used o = true := fun o ho => by rw [u3]; exact h.fx o ho
  have f3 : freeCnt env n3 = freeCnt env n := freeCnt_congr env _ _ u3
  have f4 : (0 < freeCnt env n → (finishHw env n3 tp nr nrs).2 = E.ok ∧
        freeCnt env (finishHw env n3 tp nr nrs).1 + 1 = freeCnt env n) ∧
      (freeCnt env n = 0 → (finishHw env n3 tp nr nrs).2 = E.noMsgObjFree ∧ freeCnt env (finishHw env n3 tp nr nrs).1 = 0) := by
    rw [finishHw_eq]
    constructor
    · intro hp
      obtain ⟨a, b, c⟩ := defineCtrl_ok env n3 tp nr hhw (by omega) hmax
      obtain ⟨x, y⟩ := filters_ok' env nrs (defineCtrl env n3 tp nr) hhw he.o10 (fun o ho => c o (fx3 o ho)) a
      exact ⟨x, by rw [y]; omega⟩
    · intro h0
      have : defineCtrl env n3 tp nr = (n3, E.noMsgObjFree) := by
        unfold defineCtrl
        rw [if_neg (by omega), nextFree_none (by omega)]
      rw [this]
      have hne : ¬ (E.noMsgObjFree = E.ok) := by decide
      simp only [filters, thenOk, if_neg hne]
      exact ⟨trivial, by omega⟩
  generalize finishHw env n3 tp nr nrs = p at hr k4 s4 f4
  obtain ⟨n4, e4⟩ := p
  dsimp only at k4 s4 f4
  by_cases hp : 0 < freeCnt env n
  · obtain ⟨a, b⟩ := f4.1 hp
    subst a
    rw [thenOk_ok] at hr
    have ss := setSilentAwake_sameHw env n4 tp (n4.silent tp)
    have h01 : n4.silent tp = 0 ∨ n4.silent tp = 1 := by rw [s4]; exact h.st tp hmax ht
    have e2 : (setSilentAwake env n4 tp (n4.silent tp)).2 = E.ok := by
      unfold setSilentAwake
      rw [if_pos hmax]
      rcases h01 with e | e <;> rw [e] <;> rfl
    rw [hr]
    refine ⟨k4.trans (.same ss), ?_, fun _ => ⟨e2, ?_⟩, fun h0 => by omega⟩
    · rw [setSilentAwake_silent env n4 tp _ hmax, upd_self]; exact s4
    · rw [freeCnt_congr env n4 _ (by rw [ss.hw])]; exact b
  · obtain ⟨a, b⟩ := f4.2 (by omega)
    subst a
    rw [thenOk, if_neg (by dsimp only; decide)] at hr
    rw [hr]
    exact ⟨k4, s4, fun h0 => absurd h0 hp, fun _ => ⟨rfl, b⟩⟩

theorem define_defs {env : Env} {n : Node} {o : Nat} {d : ObjDef} (ho : o < env.nObj) (hok : (define env n o d).2 = E.ok) :
    (define env n o d).1.hw.defs = upd n.hw.defs o (some d) := by
  rcases define_cases env n o d ho with ⟨_, e⟩ | ⟨_, e⟩
  · rw [e]
  · rw [e] at hok; exact absurd hok (by dsimp only; decide)

theorem thenOk_inv {r : Node × Err} {f : Node → Node × Err} (h : (thenOk r f).2 = E.ok) :
    r.2 = E.ok ∧ thenOk r f = f r.1 := by
  unfold thenOk at h ⊢
  split at h
  · next e => exact ⟨e, by rw [if_pos e]⟩
  · next e => exact absurd h e

theorem filters_defs (env : Env) (nrs : List Nat) (r : Node × Err) (hn : 10 < env.nObj) (hok : (filters env nrs r).2 = E.ok) :
    r.2 = E.ok ∧ (filters env nrs r).1.hw.defs 6 = some ⟨0x602, acceptMask nrs, 8, .asyncRx⟩ ∧
    (filters env nrs r).1.hw.defs 2 = some ⟨0x002, acceptMask nrs, 8, .rx false⟩ := by
  unfold filters at hok ⊢
  dsimp only at hok ⊢
  obtain ⟨h3, e3⟩ := thenOk_inv hok
  obtain ⟨h2, e2⟩ := thenOk_inv h3
  obtain ⟨h1, e1⟩ := thenOk_inv h2
  rw [e3] at hok ⊢
  rw [e2] at h3
  rw [e1] at h2
  have d1 := define_defs (by omega : 6 < env.nObj) h2
  have d2 := define_defs (by omega : 2 < env.nObj) h3
  rw [← e1] at d1
  rw [← e2] at d2
  generalize (thenOk (thenOk r fun n => define env n 6 ⟨0x602, acceptMask nrs, 8, .asyncRx⟩)
    fun n => define env n 2 ⟨0x002, acceptMask nrs, 8, .rx false⟩) = q at *
  refine ⟨h1, ?_⟩
  split at hok
  · next hs =>
    have d3 := define_defs (by omega : 3 < env.nObj) hok
    rw [if_pos hs, d3, d2, d1]
    exact ⟨rfl, rfl⟩
  · next hs =>
    rw [if_neg hs]
    dsimp only
    rw [d2, d1]
    exact ⟨rfl, rfl⟩

theorem changeNr_defs (env : Env) (he : EnvOk env) (n : Node) (h : Placed env n)
    (typ : List Byte) (nr act tp : Nat) (hf : n.findTypeNr env typ act = some tp) (ht : (n.rows tp).typ ≠ [])
    (hok : (changeNr env n typ nr act).2 = E.ok) :
    let r := changeNr env n typ nr act
    (∀ x, (r.1.rows x).nr = if x = tp then nr else (n.rows x).nr) ∧
    r.1.hw.defs 6 = some ⟨0x602, acceptMask ((List.range n.nrMod).map fun i => (r.1.rows i).nr), 8, .asyncRx⟩ ∧
    r.1.hw.defs 2 = some ⟨0x002, acceptMask ((List.range n.nrMod).map fun i => (r.1.rows i).nr), 8, .rx false⟩ ∧
    ∃ o < env.nObj, n.hw.used o = false ∧ r.1.hw.defs o = some ⟨asyncCtrlRxId nr, 0x7FF#16, 8, .asyncCtrlRx⟩ := by
  intro r
  have hmax : tp < env.maxMod := by
    simp only [findTypeNr, List.find?_range_eq_some] at hf
    simpa using hf.2.1
  have hr : r = changeNr env n typ nr act := rfl
  have hok : r.2 = E.ok := hok
  clear_value r
  simp only [changeNr, hf] at hr
  generalize hn1 : n.setRow tp (fun r => { r with nr := nr }) = n1 at hr
  have r1 : n1.rows = upd n.rows tp { n.rows tp with nr := nr } := by rw [← hn1]; rfl
  have o1 : n1.hw = n.hw ∧ n1.nrMod = n.nrMod := by rw [← hn1]; exact ⟨rfl, rfl⟩
  clear hn1
  rw [renumTx_eq env n1 tp nr hmax (by rw [r1, upd_same]; exact h.tx4 tp hmax ht), thenOk_ok] at hr
  generalize hn2 : ({ n1 with tx := cnfgTx n1.tx (n1.rows tp).txDlc tp nr (n1.rows tp).txObj } : Node) = n2 at hr
  have o2 : n2.rows = n1.rows ∧ n2.hw = n.hw ∧ n2.nrMod = n.nrMod := by rw [← hn2]; exact ⟨rfl, o1.1, o1.2⟩
  clear hn2
  have hx : ∃ hw u, (renumRx env n2 tp nr).1 = { n2 with hw := hw, ub := u } ∧ ∀ o, n2.hw.used o = true → hw.used o = true := by
    have W := forErr_all (f := fun i n => define env n ((n.rows tp).rxMsgObj i)
        ⟨syncRxId nr i, 0x7FF#16, (n.rows tp).rxDlc i, .rx true⟩)
      (fun _ x => ∃ hw u, x = { n2 with hw := hw, ub := u } ∧ ∀ o, n2.hw.used o = true → hw.used o = true)
      (fun x => ∃ hw u, x = { n2 with hw := hw, ub := u } ∧ ∀ o, n2.hw.used o = true → hw.used o = true)
      (n2.rows tp).rxObj ?_ (fun _ h => h) n2 ⟨n2.hw, n2.ub, rfl, fun _ h => h⟩
    · exact W.1
    · rintro j hj x ⟨hw, u, rfl, hu⟩
      dsimp only
      have row : n2.rows tp = { n.rows tp with nr := nr } := by rw [o2.1, r1, upd_same]
      have hlt : (n2.rows tp).rxMsgObj j < env.nObj := by
        rw [row] at hj ⊢
        exact (h.rx tp hmax ht j hj).1
      obtain ⟨hw', u', e⟩ := define_eq env { n2 with hw := hw, ub := u } ((n2.rows tp).rxMsgObj j)
        ⟨syncRxId nr j, 0x7FF#16, (n2.rows tp).rxDlc j, .rx true⟩
      have e2 := fun o => define_used env { n2 with hw := hw, ub := u } ((n2.rows tp).rxMsgObj j) o
        ⟨syncRxId nr j, 0x7FF#16, (n2.rows tp).rxDlc j, .rx true⟩ hlt
      rw [e] at e2 ⊢
      exact ⟨fun _ => ⟨hw', u', rfl, fun o ho => e2 o (hu o ho)⟩, ⟨hw', u', rfl, fun o ho => e2 o (hu o ho)⟩⟩
  generalize renumRx env n2 tp nr = q at hr hx
  obtain ⟨n3, e3⟩ := q
  obtain ⟨hw, u, e, hu⟩ := hx
  dsimp only at e
  rw [hr] at hok
  obtain ⟨h3, e4⟩ := thenOk_inv hok
  dsimp only at h3 e4
  rw [e4] at hr hok
  clear e4
  subst h3
  have o3 : n3.rows = n1.rows ∧ n3.nrMod = n.nrMod ∧ ∀ o, n.hw.used o = true → n3.hw.used o = true := by
    rw [e]; exact ⟨o2.1, o2.2.2, fun o ho => hu o (by rw [o2.2.1]; exact ho)⟩
  clear e hu o2 o1
  rw [finish_eq] at hr hok
  obtain ⟨h5, e5⟩ := thenOk_inv hok
  rw [e5] at hr
  have hnrs : ((List.range n3.nrMod).map fun i => (n3.rows i).nr) = (List.range n.nrMod).map fun i => (n1.rows i).nr := by
    rw [o3.1, o3.2.1]
  rw [hnrs] at hr h5
  generalize hq : ((List.range n.nrMod).map fun i => (n1.rows i).nr) = nrs at hr h5
  rw [finishHw_eq] at h5
  obtain ⟨hc, d6, d2⟩ := filters_defs env nrs _ he.o10 h5
  rw [← finishHw_eq] at d6 d2
  have hct : ∃ o < env.nObj, n3.hw.used o = false ∧
      (finishHw env n3 tp nr nrs).1.hw.defs o = some ⟨asyncCtrlRxId nr, 0x7FF#16, 8, .asyncCtrlRx⟩ := by
    rw [finishHw_eq]
    revert hc
    unfold defineCtrl
    rw [if_neg (by omega)]
    split
    · exact fun hh => absurd hh (by dsimp only; decide)
    · next o ho =>
      intro hc
      obtain ⟨a, b⟩ := nextFree_some ho
      have dd := define_defs a hc
      have us : ∀ x, x = o → (define env { n3 with ctrlObj := upd n3.ctrlObj tp o } o
          ⟨asyncCtrlRxId nr, 0x7FF#16, 8, .asyncCtrlRx⟩).1.hw.used x = true := by
        rintro x rfl
        rcases define_cases env { n3 with ctrlObj := upd n3.ctrlObj tp x } x
          ⟨asyncCtrlRxId nr, 0x7FF#16, 8, .asyncCtrlRx⟩ a with ⟨_, e⟩ | ⟨_, e⟩ <;> rw [e] <;> simp
      refine ⟨o, a, b, ?_⟩
      have nf : ¬ FilterObj env o := fun hfo => by
        rw [o3.2.2 o (h.fx o hfo.fixed)] at b; cases b
      refine (filters_ind env nrs (fun x => x.hw.used o = true ∧ x.hw.defs o = some ⟨asyncCtrlRxId nr, 0x7FF#16, 8, .asyncCtrlRx⟩)
        he.o10 ?_ _ ⟨us o rfl, by rw [dd, upd_same]⟩).2
      intro x p d ⟨x1, x2⟩ hp _ _
      have := define_keepsF env x p d hp (by have := he.o10; omega) o x1
      exact ⟨this.1, by rw [this.2 nf]; exact x2⟩
  have row4 : (finishHw env n3 tp nr nrs).1.rows = n1.rows := by
    obtain ⟨_, _, _, _, e'⟩ := finishHw_hwOnly env n3 tp nr nrs
    rw [e']; exact o3.1
  generalize finishHw env n3 tp nr nrs = p at *
  have ss := setSilentAwake_sameHw env p.1 tp (p.1.silent tp)
  rw [← hr] at ss
  have hnr : ∀ x, (r.1.rows x).nr = (n1.rows x).nr := by
    intro x
    have := ss.core x
    simp only [core, Row.mk.injEq] at this
    rw [← row4]; exact this.2.1
  refine ⟨?_, ?_, ?_, ?_⟩
  · intro x
    rw [hnr, r1]
    by_cases e : x = tp
    · subst e; simp
    · rw [upd_other _ _ e, if_neg e]
  · rw [ss.hw, d6, ← hq]; simp only [hnr]
  · rw [ss.hw, d2, ← hq]; simp only [hnr]
  · obtain ⟨o, a, b, c⟩ := hct
    refine ⟨o, a, ?_, by rw [ss.hw]; exact c⟩
    cases hb : n.hw.used o with
    | false => rfl
    | true => rw [o3.2.2 o hb] at b; cases b

theorem find_self (env : Env) (n : Node) (i : Nat) (hi : i < env.maxMod) :
    ∃ tp, n.findTypeNr env (n.rows i).typ (n.rows i).nr = some tp ∧ (n.rows tp).typ = (n.rows i).typ := by
  cases hx : n.findTypeNr env (n.rows i).typ (n.rows i).nr with
  | none =>
    simp only [findTypeNr, List.find?_eq_none] at hx
    exact absurd (hx i (by simpa using hi)) (by simp)
  | some tp =>
    refine ⟨tp, rfl, ?_⟩
    simp only [findTypeNr, List.find?_range_eq_some] at hx
    have := hx.1
    simp at this
    exact this.1

end Node

/-! ## C99 -/

/-- C99: a number change of a registered module which the application accepts succeeds if there is an unused message
object, and takes one; otherwise it fails with CAN_NO_MSG_OBJ_FREE. -/
theorem C99_one_object_per_change_partial (env : Env) (he : EnvOk env) (hhw : ∀ k, env.hwOk k = true) (hv : VoterAccepts env)
    (n : Node) (h : Placed env n) (i nr : Nat) (hi : i < env.maxMod) (ht : (n.rows i).typ ≠ []) :
    let r := changeModuleNr env n i nr
    Placed env r.1 ∧ (∀ x, (r.1.rows x).typ = (n.rows x).typ) ∧
    (unused env n ≠ [] → r.2 = E.ok ∧ (unused env r.1).length + 1 = (unused env n).length) ∧
    (unused env n = [] → r.2 = E.noMsgObjFree ∧ unused env r.1 = []) := by
  obtain ⟨tp, hf, htp⟩ := find_self env n i hi
  obtain ⟨k, s, a, b⟩ := changeNr_free env he hhw n h (n.rows i).typ nr (n.rows i).nr tp hf (by rw [htp]; exact ht)
  have hp : Placed env (changeNr env n (n.rows i).typ nr (n.rows i).nr).1 := h.kin k (by rw [s]; exact h.st)
  have key : ∀ st, st ≤ 1 →
      let r := thenOk (changeNr env n (n.rows i).typ nr (n.rows i).nr) fun n => setSilentAwake env n i st
      Placed env r.1 ∧ (∀ x, (r.1.rows x).typ = (n.rows x).typ) ∧
      (0 < freeCnt env n → r.2 = E.ok ∧ freeCnt env r.1 + 1 = freeCnt env n) ∧
      (freeCnt env n = 0 → r.2 = E.noMsgObjFree ∧ freeCnt env r.1 = 0) := by
    intro st hst r
    by_cases h0 : 0 < freeCnt env n
    · obtain ⟨a1, a2⟩ := a h0
      have hr : r = setSilentAwake env (changeNr env n (n.rows i).typ nr (n.rows i).nr).1 i st := by
        show thenOk _ _ = _
        rw [thenOk, if_pos a1]
      have ss := setSilentAwake_sameHw env (changeNr env n (n.rows i).typ nr (n.rows i).nr).1 i st
      refine ⟨?_, ?_, fun _ => ⟨?_, ?_⟩, fun e => by omega⟩
      · rw [hr]
        refine hp.kin (.same ss) ?_
        intro x hx hxt
        rw [setSilentAwake_silent _ _ _ _ hi]
        by_cases e : x = i
        · subst e; rw [upd_same]; omega
        · rw [upd_other _ _ e]; exact hp.st x hx hxt
      · rw [hr]
        exact fun x => (k.trans (.same ss)).row x |>.1
      · rw [hr]; unfold setSilentAwake; rw [if_pos hi]
        rcases (by omega : st = 0 ∨ st = 1) with e | e <;> rw [e] <;> rfl
      · rw [hr, freeCnt_congr env (changeNr env n (n.rows i).typ nr (n.rows i).nr).1 _ (by rw [ss.hw])]; exact a2
    · obtain ⟨b1, b2⟩ := b (by omega)
      have hr : r = changeNr env n (n.rows i).typ nr (n.rows i).nr := by
        show thenOk _ _ = _
        rw [thenOk, if_neg (by rw [b1]; decide)]
      rw [hr]
      exact ⟨hp, fun x => (k.row x).1, fun e => absurd e h0, fun _ => ⟨b1, b2⟩⟩
  have main : Placed env (changeModuleNr env n i nr).1 ∧ (∀ x, ((changeModuleNr env n i nr).1.rows x).typ = (n.rows x).typ) ∧
      (0 < freeCnt env n → (changeModuleNr env n i nr).2 = E.ok ∧ freeCnt env (changeModuleNr env n i nr).1 + 1 = freeCnt env n) ∧
      (freeCnt env n = 0 → (changeModuleNr env n i nr).2 = E.noMsgObjFree ∧ freeCnt env (changeModuleNr env n i nr).1 = 0) := by
    unfold changeModuleNr
    cases hvo : env.voter with
    | none => exact ⟨hp, fun x => (k.row x).1, a, b⟩
    | some v =>
      dsimp only
      rcases hv v hvo (n.rows i).typ nr (n.rows i).nr with e | e <;> rw [e]
      · exact key 1 (by omega)
      · exact key 0 (by omega)
  intro r
  refine ⟨main.1, main.2.1, fun hne => ?_, fun h0 => ?_⟩
  · rw [← freeCnt_unused, ← freeCnt_unused]
    exact main.2.2.1 (List.length_pos_iff.2 hne)
  · obtain ⟨x, y⟩ := main.2.2.2 (by rw [freeCnt_unused, h0]; rfl)
    exact ⟨x, List.eq_nil_of_length_eq_zero y⟩

/-- C99: of a sequence of number changes of registered modules, exactly the first `k` succeed, `k` the number of unused
message objects at the beginning; all later ones fail. -/
theorem C99_budget_partial (env : Env) (he : EnvOk env) (hhw : ∀ k, env.hwOk k = true) (hv : VoterAccepts env)
    (n : Node) (h : Placed env n) (cs : List (Nat × Nat))
    (hc : ∀ c ∈ cs, c.1 < env.maxMod ∧ (n.rows c.1).typ ≠ []) :
    (renumber env n cs).2 = List.replicate (min cs.length (unused env n).length) E.ok ++
      List.replicate (cs.length - (unused env n).length) E.noMsgObjFree := by
  induction cs generalizing n with
  | nil => simp [renumber]
  | cons c cs ih =>
    obtain ⟨h1, h2⟩ := hc c (by simp)
    obtain ⟨p, t, a, b⟩ := C99_one_object_per_change_partial env he hhw hv n h c.1 c.2 h1 h2
    have ih := ih (changeModuleNr env n c.1 c.2).1 p (fun d hd => by
      obtain ⟨x, y⟩ := hc d (by simp [hd])
      exact ⟨x, by rw [t]; exact y⟩)
    simp only [renumber]
    rw [ih]
    by_cases hu : unused env n = []
    · obtain ⟨e, f⟩ := b hu
      rw [e, f, hu]
      simp [List.replicate_succ]
    · obtain ⟨e, f⟩ := a hu
      rw [e]
      have : (unused env n).length ≠ 0 := fun h => hu (List.eq_nil_of_length_eq_zero h)
      rw [← f]
      have e1 : min (c :: cs).length ((unused env (changeModuleNr env n c.1 c.2).1).length + 1) =
          min cs.length (unused env (changeModuleNr env n c.1 c.2).1).length + 1 := by
        simp only [List.length_cons]; omega
      rw [e1]
      simp [List.replicate_succ]

/-- C99: after a number change answered with OK the module is reachable under its new number: some message object takes
the control messages to it, and the filters of the system messages (object 2) and of the data (object 6) let through the
messages to all modules of the table, the changed one with its new number. -/
theorem C99_reachable_partial (env : Env) (he : EnvOk env) (n : Node) (h : Placed env n) (i nr : Nat)
    (hi : i < env.maxMod) (ht : (n.rows i).typ ≠ []) (hd : ∀ x < i, (n.rows x).typ = (n.rows i).typ → (n.rows x).nr ≠ (n.rows i).nr)
    (hnr : 1 ≤ nr ∧ nr ≤ 128) (hall : ∀ x < n.nrMod, 1 ≤ (n.rows x).nr ∧ (n.rows x).nr ≤ 128) (hin : i < n.nrMod)
    (hok : (changeNr env n (n.rows i).typ nr (n.rows i).nr).2 = E.ok) :
    let r := (changeNr env n (n.rows i).typ nr (n.rows i).nr).1
    (r.rows i).nr = nr ∧
    (∃ o < env.nObj, r.hw.defs o = some ⟨0x600 + 4 * (nr - 1), 0x7FF#16, 8, .asyncCtrlRx⟩) ∧
    ∃ d2 d6, r.hw.defs 2 = some d2 ∧ r.hw.defs 6 = some d6 ∧ ∀ x < n.nrMod,
      hwAccepts (BitVec.ofNat 16 d2.id) d2.mask (BitVec.ofNat 16 (0x002 + 4 * ((if x = i then nr else (n.rows x).nr) - 1))) = true ∧
      hwAccepts (BitVec.ofNat 16 d6.id) d6.mask (BitVec.ofNat 16 (0x602 + 4 * ((if x = i then nr else (n.rows x).nr) - 1))) = true := by
  have hf : n.findTypeNr env (n.rows i).typ (n.rows i).nr = some i := by
    simp only [Node.findTypeNr, List.find?_range_eq_some]
    refine ⟨by simp, by simpa using hi, fun j hj => ?_⟩
    simp only [Bool.not_eq_true', decide_eq_false_iff_not, not_and]
    exact hd j hj
  obtain ⟨a, b, c, o, ho, _, d⟩ := changeNr_defs env he n h _ nr _ i hf ht hok
  intro r
  have hr : ∀ x < n.nrMod, 1 ≤ (r.rows x).nr ∧ (r.rows x).nr ≤ 128 := by
    intro x hx
    rw [a]; split
    · exact hnr
    · exact hall x hx
  refine ⟨by rw [a, if_pos rfl], ⟨o, ho, ?_⟩, _, _, c, b, ?_⟩
  · rw [d, asyncCtrlRxId, idOf_eq _ _ _ hnr.1 (by omega)]
    congr 2; omega
  · intro x hx
    have := C03_filter_complete ((List.range n.nrMod).map fun i => (r.rows i).nr) (by
      intro k hk
      obtain ⟨y, hy, rfl⟩ := List.mem_map.1 hk
      exact hr y (by simpa using hy)) (r.rows x).nr (.inr (List.mem_map.2 ⟨x, by simpa using hx, rfl⟩))
    have hx' := hr x hx
    rw [← a x]
    rw [sysRxId, asyncDataRxId, idOf_eq _ _ _ hx'.1 (by omega), idOf_eq _ _ _ hx'.1 (by omega)] at this
    rw [Nat.mul_comm 4]
    exact this

/-- C99: the hypothesis of the statements above holds after every history of registrations, silent/awake and active
requests and process requests which configured all its modules, and is kept by number changes. -/
theorem C99_applies (env : Env) (he : EnvOk env) (n : Node) (h : Reach env n)
    (hc : ∀ i, (n.rows i).typ ≠ [] → Configured n i) (hs : ∀ i, n.silent i = 0 ∨ n.silent i = 1) : Placed env n := by
  obtain ⟨t, hg, _⟩ := h.good he
  refine ⟨?_, fun i _ _ => hs i, hg.hw.fixed, ?_⟩
  · intro i _ ht
    obtain ⟨m, hm, hrow⟩ := hg.sim.get ht
    rw [hrow.txObj]; exact hrow.tx4
  · intro i _ ht j hj
    have := hg.hw.asg ((n.rows i).rxMsgObj j) (by
      simp only [assigned, List.mem_append, List.mem_map]; exact .inl ⟨_, ((hc i ht).rx j hj).1, rfl⟩)
    exact ⟨this.1, this.2.2⟩

/-- C99: over whole histories.  A node is initialised, modules are registered (with message objects for all of them), then
their numbers are changed: exactly as many changes succeed as there are message objects left. -/
theorem C99_history_partial (env : Env) (he : EnvOk env) (hhw : ∀ k, env.hwOk k = true) (hv : VoterAccepts env)
    (mem : Nat → List Byte) (ops : List Op) (hok : (Node.init env (boot mem)).2 = E.ok)
    (hb : ∀ o ∈ ops, Basic o ∧ StateOk o)
    (hn : (ops.map need).sum + (if env.sysObj2 then 5 else 4) ≤ env.nObj)
    (hs : ∀ i, (Node.run env (Node.init env (boot mem)).1 ops).silent i = 0 ∨
      (Node.run env (Node.init env (boot mem)).1 ops).silent i = 1) (cs : List (Nat × Nat))
    (hc : ∀ c ∈ cs, c.1 < env.maxMod ∧ ((Node.run env (Node.init env (boot mem)).1 ops).rows c.1).typ ≠ []) :
    let n := Node.run env (Node.init env (boot mem)).1 ops
    (renumber env n cs).2 = List.replicate (min cs.length (unused env n).length) E.ok ++
      List.replicate (cs.length - (unused env n).length) E.noMsgObjFree :=
  C99_budget_partial env he hhw hv _ (C99_applies env he _ ⟨mem, ops, hok, fun o ho => (hb o ho).1, rfl⟩
    (fun i hi => C06_history_partial env he hhw mem ops hok hb hn i hi) hs) cs hc

/-- the example node (three modules at most, 32 message objects) after its two registrations -/
theorem ex99 : Placed exEnv (Node.run exEnv (exInit exEnv) exOps) := by
  refine ⟨?_, ?_, ?_, ?_⟩
  · decide +kernel
  · decide +kernel
  · intro o ho
    have : ∀ o < 11, (o = 0 ∨ o = 2 ∨ o = 3 ∨ o = 6 ∨ o = 10) →
        (Node.run exEnv (exInit exEnv) exOps).hw.used o = true := by decide +kernel
    exact this o (by unfold Fixed at ho; omega) (by unfold Fixed at ho; omega)
  · decide +kernel

/-- thirty changes of the number of the first module: the first ones succeed, the others fail -/
example :
    let n := Node.run exEnv (exInit exEnv) exOps
    (∀ k, exEnv.hwOk k = true) ∧ VoterAccepts exEnv ∧ (n.rows 0).typ ≠ [] ∧ unused exEnv n ≠ [] ∧
    (renumber exEnv n (List.replicate 30 (0, 7))).2.count E.ok = (unused exEnv n).length := by
  refine ⟨fun _ => rfl, ?_, ?_⟩
  · intro v h; simp [exEnv] at h
  · decide +kernel

/-- C99 is false: with eleven message objects one is left after the registration of a module with four receive objects.
The first number change succeeds, the second one fails; afterwards the module sends its process data with the new number 7
(identifier 0x418), but no message object takes system messages (0x01A), control messages (0x618) or data (0x61A) to it. -/
theorem C99_counterexample :
    let n := Node.run exSmall (exInit exSmall) [.add (exTpl 65 4 1) 5 (fun _ => 1) (fun _ => 2)]
    let q := renumber exSmall n [(0, 6), (0, 7)]
    Reach exSmall n ∧ q.2 = [E.ok, E.noMsgObjFree] ∧ (q.1.rows 0).nr = 7 ∧ q.1.tx.id 0 0 = 0x418 ∧
    ∀ o < exSmall.nObj, ∀ d ∈ q.1.hw.defs o, ∀ id ∈ [0x01A, 0x618, 0x61A],
      hwAccepts (BitVec.ofNat 16 d.id) d.mask (BitVec.ofNat 16 id) = false := by
  refine ⟨exReachSmall _ (by simp [Basic, exTpl]), ?_⟩
  decide +kernel

end LiCan
