import Verif.Lemmas.MonImage
/-! # Slaves with monitor controller: histories and invariants -/
namespace LiCan
namespace Spec

/-- Which controllers have received a process request in the current period: the first request after
both have received one begins a new period. -/
def pair (w : Bool × Bool) : Mon.MIn → Bool × Bool
  | .main _ obj _ _ _ => if obj = 0 then (if w = (true, true) then (true, false) else (true, w.2)) else w
  | .mon _ obj _ _ _ => if obj = 1 then (if w = (true, true) then (false, true) else (w.1, true)) else w
  | _ => w

end Spec
open Node Spec Slave
namespace Mon

/-- sizes of the real configurations -/
structure MonEnvOk (me : MonEnv) : Prop where
  env : EnvOk me.toEnv
  big : 4 < me.nMon
  o32 : me.nMon ≤ 32

/-- inputs covered by the table specification: every registration is completed, no number or type
change -/
def BasicM (me : MonEnv) (d : Mon) : MIn → Prop
  | .main _ obj _ _ data =>
    (obj = 2 ∨ (obj = 3 ∧ me.sysObj2 = true)) → at8 data 0 ≠ 0x20 ∧ at8 data 0 ≠ 0x31
  | .add tpl mt nr rx tx => Basic (.add tpl nr rx tx) ∧ MonTplOk mt ∧ regErr me d tpl mt nr rx tx = E.ok
  | .silentAwakeBy typ _ _ => typ ≠ []
  | .setActive typ => typ ≠ []
  | .setCritical typ => typ ≠ []
  | .changeNr .. => False
  | _ => True

/-- the states reached by such inputs after a successful initialisation, with the state of the current
period -/
inductive MReach (me : MonEnv) : Bool × Bool → Mon → Prop
  | init (mem : Nat → List Byte) (baud : Nat) (h : (Mon.init me (Mon.boot mem) baud).2 = E.ok) :
      MReach me (false, false) (Mon.init me (Mon.boot mem) baud).1
  | step {w : Bool × Bool} {d d' : Mon} {i : MIn} (h : MReach me w d) (b : BasicM me d i) (s : Mon.step me d i = some d') :
      MReach me (pair w i) d'

/-- the invariants -/
structure MInv (me : MonEnv) (w : Bool × Bool) (d : Mon) : Prop where
  table : TableInv me.toEnv d.s.node
  defs  : DefInv me.toEnv d.s.node.hw
  wired : Wired me d.s.node.rows d.m
  full  : Full d.s.node.rows d.m
  flag  : d.s.sync.prFlag = if w.1 then 0xFFFF else 0
  mflag : d.m.prFlag = if w.2 then 0xFFFF else 0
  pcnt  : w.1 = false → d.s.sync.prCnt = 0
  mpcnt : w.2 = false → d.m.prCnt = 0

theorem define_ok {me : MonEnv} {m : MonVars} {o : Nat} {x : MonDef} (ho : o < me.nMon)
    (h : (define me m o x).2 = E.ok) : (define me m o x).1 =
      { m with used := upd m.used o true, cfgN := m.cfgN + 1
               defs := upd m.defs o (some x)
               maskRx := if x.svc = .rx true then m.maskRx ||| Node.bit o else m.maskRx
               maskMain := if x.svc = .rxMain then m.maskMain ||| Node.bit o else m.maskMain } := by
  unfold define at h ⊢
  rw [if_neg (by omega)] at h ⊢
  dsimp only at h ⊢
  split at h
  · next hk => rw [if_pos hk]
  · exact absurd (show E.initFailed = E.ok from h) (by decide)

theorem thenOk_skip (r : Node × Err) : thenOk r (fun n => (n, E.ok)) = r := by
  unfold thenOk
  split
  · next h => rw [← h]
  · rfl

theorem Same.skip (f : MonVars → MonVars × Err) : Same (onMon f) (fun n => (n, E.ok)) := fun _ _ => ⟨rfl, rfl⟩

/-- the state `can_config_init` and the driver initialisation leave -/
def initNode (env : Env) (n : Node) : Node :=
  { n with
    nrMod := 0
    rows := fun i => if i < env.maxMod then { n.rows i with typ := [] } else n.rows i
    hw := { n.hw with
      used := fun i => if i < env.nObj then false else n.hw.used i
      defs := fun i => if i < env.nObj then none else n.hw.defs i } }

/-- the message objects defined by `li_can_slv_init` -/
def initDefs (me : MonEnv) (d : Mon) : Mon × Err :=
  andThen (andThen (andThen (andThen (andThen (andThen
    (onNode (fun n => Node.define me.toEnv n 0 ⟨0x001, 0x7FF#16, 1, .rx false⟩) d)
    (onMon fun m => define me m 1 ⟨0x001, 0x7FF#16, 1, .rx false⟩))
    (onMon fun m => define me m 4 ⟨0x002, 0x7FF#16, 8, .rx false⟩))
    (onNode fun n => Node.define me.toEnv n 2 ⟨0x002, 0x7FF#16, 8, .rx false⟩))
    (onNode fun n =>
      if me.sysObj2 then Node.define me.toEnv n 3 ⟨0x002, 0x7FF#16, 8, .rx false⟩ else (n, E.ok)))
    (onNode fun n => Node.define me.toEnv n 6 ⟨0x600, 0x7FF#16, 8, .asyncRx⟩))
    (onNode fun n => Node.define me.toEnv n 10 ⟨0, 0x7FF#16, 0, .tx⟩)

/-- the state before these definitions -/
def initMon (me : MonEnv) (d : Mon) (baud : Nat) : Mon :=
  { s := { d.s with node := initNode me.toEnv d.s.node, link := { d.s.link with startup := baud } }
    m := { d.m with
      used := fun i => if i < me.nMon then false else d.m.used i
      defs := fun i => if i < me.nMon then none else d.m.defs i } }

theorem init_eq (me : MonEnv) (d : Mon) (baud : Nat) : Mon.init me d baud =
    andThen (initDefs me (initMon me d baud)) fun d =>
      ({ s := { d.s with sys := sysInit me.toEnv d.s.sys, sync := syncInit me.toEnv d.s.sync }
         m := { d.m with mainTx := upd d.m.mainTx 0 fun _ => zeros8, monRx := upd d.m.monRx 0 fun _ => zeros8 } }, E.ok) := by
  unfold Mon.init initDefs initMon initNode
  dsimp only

theorem nodeInit_eq (env : Env) (n : Node) : Node.init env n =
    thenOk (thenOk (thenOk (thenOk (Node.define env (initNode env n) 0 ⟨0x001, 0x7FF#16, 1, .rx false⟩)
      fun n => Node.define env n 2 ⟨0x002, 0x7FF#16, 8, .rx false⟩)
      fun n => if env.sysObj2 then Node.define env n 3 ⟨0x002, 0x7FF#16, 8, .rx false⟩ else (n, E.ok))
      fun n => Node.define env n 6 ⟨0x600, 0x7FF#16, 8, .asyncRx⟩)
      fun n => Node.define env n 10 ⟨0, 0x7FF#16, 0, .tx⟩ := by
  unfold Node.init initNode
  dsimp only

theorem initDefs_same (me : MonEnv) : Same (initDefs me) (fun n =>
    thenOk (thenOk (thenOk (thenOk (Node.define me.toEnv n 0 ⟨0x001, 0x7FF#16, 1, .rx false⟩)
      fun n => Node.define me.toEnv n 2 ⟨0x002, 0x7FF#16, 8, .rx false⟩)
      fun n => if me.sysObj2 then Node.define me.toEnv n 3 ⟨0x002, 0x7FF#16, 8, .rx false⟩ else (n, E.ok))
      fun n => Node.define me.toEnv n 6 ⟨0x600, 0x7FF#16, 8, .asyncRx⟩)
      fun n => Node.define me.toEnv n 10 ⟨0, 0x7FF#16, 0, .tx⟩) := by
  have := Same.andThen (Same.andThen (Same.andThen (Same.andThen (Same.andThen (Same.andThen
    (Same.node (fun n => Node.define me.toEnv n 0 ⟨0x001, 0x7FF#16, 1, .rx false⟩))
    (Same.skip fun m => define me m 1 ⟨0x001, 0x7FF#16, 1, .rx false⟩))
    (Same.skip fun m => define me m 4 ⟨0x002, 0x7FF#16, 8, .rx false⟩))
    (Same.node fun n => Node.define me.toEnv n 2 ⟨0x002, 0x7FF#16, 8, .rx false⟩))
    (Same.node fun n => if me.sysObj2 then Node.define me.toEnv n 3 ⟨0x002, 0x7FF#16, 8, .rx false⟩ else (n, E.ok)))
    (Same.node fun n => Node.define me.toEnv n 6 ⟨0x600, 0x7FF#16, 8, .asyncRx⟩))
    (Same.node fun n => Node.define me.toEnv n 10 ⟨0, 0x7FF#16, 0, .tx⟩)
  simp only [thenOk_skip] at this
  exact this

theorem initDefs_m {me : MonEnv} {d : Mon} (h : (initDefs me d).2 = E.ok) :
    (define me d.m 1 ⟨0x001, 0x7FF#16, 1, .rx false⟩).2 = E.ok ∧
    (define me (define me d.m 1 ⟨0x001, 0x7FF#16, 1, .rx false⟩).1 4 ⟨0x002, 0x7FF#16, 8, .rx false⟩).2 = E.ok ∧
    (initDefs me d).1.m =
      (define me (define me d.m 1 ⟨0x001, 0x7FF#16, 1, .rx false⟩).1 4 ⟨0x002, 0x7FF#16, 8, .rx false⟩).1 := by
  unfold initDefs at h ⊢
  obtain ⟨h, -, e6⟩ := andThen_ok h
  rw [e6]
  obtain ⟨h, -, e5⟩ := andThen_ok h
  rw [e5]
  obtain ⟨h, -, e4⟩ := andThen_ok h
  rw [e4]
  obtain ⟨h, -, e3⟩ := andThen_ok h
  rw [e3]
  obtain ⟨h, h2, e2⟩ := andThen_ok h
  rw [e2]
  obtain ⟨h, h1, e1⟩ := andThen_ok h
  rw [e1] at h2 ⊢
  exact ⟨h1, h2, rfl⟩

theorem init_ok {me : MonEnv} {d : Mon} {baud : Nat} (h : (Mon.init me d baud).2 = E.ok) :
    (d.s.node.init me.toEnv).2 = E.ok ∧ (Mon.init me d baud).1.s.node = (d.s.node.init me.toEnv).1 ∧
    (Mon.init me d baud).1.s.sync = syncInit me.toEnv d.s.sync ∧
    (initDefs me (initMon me d baud)).2 = E.ok ∧
    (Mon.init me d baud).1.m = { (initDefs me (initMon me d baud)).1.m with
      mainTx := upd (initDefs me (initMon me d baud)).1.m.mainTx 0 fun _ => zeros8
      monRx := upd (initDefs me (initMon me d baud)).1.m.monRx 0 fun _ => zeros8 } := by
  rw [init_eq] at h ⊢
  obtain ⟨a, b, c⟩ := andThen_ok h
  rw [c, nodeInit_eq]
  obtain ⟨s1, s2⟩ := initDefs_same me (initMon me d baud) a
  dsimp only at s1 s2 ⊢
  rw [s2]
  exact ⟨s1, rfl, rfl, a, rfl⟩

theorem MInv.init {me : MonEnv} (he : MonEnvOk me) {mem : Nat → List Byte} {baud : Nat}
    (h : (Mon.init me (Mon.boot mem) baud).2 = E.ok) : MInv me (false, false) (Mon.init me (Mon.boot mem) baud).1 := by
  obtain ⟨a, b, c, d, e⟩ := init_ok h
  obtain ⟨m1, m2, m3⟩ := initDefs_m d
  rw [m3] at e
  have big := he.big
  rw [define_ok (by omega) m1] at m2 e
  rw [define_ok (by omega) m2] at e
  have hb : (Mon.boot mem).s.node = Node.boot mem := rfl
  rw [hb] at a b
  have typ : ∀ i, ((Node.boot mem).init me.toEnv).1.rows i = ((initNode me.toEnv (Node.boot mem)).rows i) := by
    intro i
    rw [nodeInit_eq, thenOk_rows, thenOk_rows, thenOk_rows, thenOk_rows, define_rows]
    all_goals intro n
    · exact define_rows ..
    · split
      · exact define_rows ..
      · rfl
    · exact define_rows ..
    · exact define_rows ..
  have typ0 : ∀ i, ((Mon.init me (Mon.boot mem) baud).1.s.node.rows i).typ = [] := by
    intro i
    rw [b, typ]
    unfold initNode
    dsimp only
    split <;> rfl
  constructor
  · rw [b]; exact ⟨_, Good.init he.env mem a, by constructor <;> simp [Table.empty]⟩
  · rw [b]; exact DefInv.init he.env.o32 _
  · rw [e]
    have hm : (initMon me (Mon.boot mem) baud).m.rxSlots = [] ∧ (initMon me (Mon.boot mem) baud).m.txSlots = [] ∧
      (initMon me (Mon.boot mem) baud).m.maskRx = 0 ∧ (initMon me (Mon.boot mem) baud).m.maskMain = 0 := ⟨rfl, rfl, rfl, rfl⟩
    have hn : ∀ o < me.nMon, (initMon me (Mon.boot mem) baud).m.defs o = none := by
      intro o ho
      show (if o < me.nMon then none else _) = none
      rw [if_pos ho]
    generalize (initMon me (Mon.boot mem) baud).m = m at *
    obtain ⟨q1, q2, q3, q4⟩ := hm
    refine ⟨?_, ?_, ?_, ?_, ?_, ?_, ?_, ?_, ?_, ?_, ?_, ?_⟩
    · dsimp only; rw [upd_other _ _ (by decide), upd_same]
    · dsimp only; rw [upd_same]
    · dsimp only; rw [upd_other _ _ (by decide), upd_same]
    · dsimp only; rw [upd_same]
    · dsimp only; rw [q1, q2]; exact List.nodup_nil
    · dsimp only; rw [q1, q2]; intro s hs; cases hs
    · dsimp only; rw [q1]; intro s hs; cases hs
    · dsimp only; rw [q2]; intro s hs; cases hs
    · dsimp only
      intro o ho x hx
      by_cases e4 : o = 4
      · exact .inr (.inl e4)
      · by_cases e1 : o = 1
        · exact .inl e1
        · rw [upd_other _ _ e4, upd_other _ _ e1, hn o ho] at hx; cases hx
    · dsimp only; rw [q1]
      intro o _
      simp [q3]
    · dsimp only; rw [q2]
      intro o _
      simp [q4]
    · intro i hi; exact absurd (typ0 i) hi
  · intro i hi; exact absurd (typ0 i) hi
  · rw [c]; rfl
  · rw [e]; rfl
  · intro _; rw [c]; rfl
  · intro _; rw [e]; rfl

/-! ## The request state of the monitor during a registration -/

/-- the request state of the monitor is the same -/
def SamePr (m m' : MonVars) : Prop := m'.prFlag = m.prFlag ∧ m'.prCnt = m.prCnt

theorem SamePr.refl (m : MonVars) : SamePr m m := ⟨rfl, rfl⟩
theorem SamePr.trans {a b c : MonVars} (h : SamePr a b) (g : SamePr b c) : SamePr a c := ⟨g.1.trans h.1, g.2.trans h.2⟩

theorem andThen_pr {r : Mon × Err} {f : Mon → Mon × Err} {m : MonVars} (h : SamePr m r.1.m)
    (hf : ∀ d, SamePr d.m (f d).1.m) : SamePr m (andThen r f).1.m := by
  unfold andThen; split
  · exact h.trans (hf _)
  · exact h

theorem loop_pr {f : Nat → Mon → Mon × Err} (hf : ∀ i d, SamePr d.m (f i d).1.m) (is : List Nat) :
    ∀ d, SamePr d.m (loop f is d).1.m := by
  induction is with
  | nil => intro d; exact .refl _
  | cons i is ih => intro d; exact andThen_pr (hf i d) ih

theorem define_pr (me : MonEnv) (m : MonVars) (o : Nat) (x : MonDef) : SamePr m (define me m o x).1 := by
  unfold define; split
  · exact .refl _
  · dsimp only; split <;> exact .refl _

theorem mThen_pr {r : MonVars × Err} {f : MonVars → MonVars × Err} {m : MonVars} (h : SamePr m r.1)
    (hf : ∀ m, SamePr m (f m).1) : SamePr m (mThen r f).1 := by
  unfold mThen; split
  · exact h.trans (hf _)
  · exact h

theorem setRxMon_pr (me : MonEnv) (tp nr i dlc : Nat) (m : MonVars) : SamePr m (setRxMon me tp nr i dlc m).1 := by
  unfold setRxMon; split
  · exact .refl _
  · refine mThen_pr (SamePr.trans ?_ (define_pr me _ _ _)) ?_
    · exact .refl _
    · intro m; unfold addRxSlot; split <;> exact .refl _

theorem setTxMon_pr (me : MonEnv) (tp nr i dlc : Nat) (m : MonVars) : SamePr m (setTxMon me tp nr i dlc m).1 := by
  unfold setTxMon; split
  · exact .refl _
  · refine mThen_pr (SamePr.trans ?_ (define_pr me _ _ _)) ?_
    · exact .refl _
    · intro m; unfold addTxSlot; split <;> exact .refl _

theorem setSilentAwake_pr (me : MonEnv) (d : Mon) (tp st : Nat) : SamePr d.m (setSilentAwake me d tp st).1.m := by
  unfold setSilentAwake
  dsimp only
  split
  · split
    · exact .refl _
    · split <;> exact .refl _
  · exact .refl _

theorem setRx_pr (me : MonEnv) (d : Mon) (tp nr : Nat) : SamePr d.m (setRx me d tp nr).1.m := by
  unfold setRx
  generalize hd : (onNode (fun n => (n.setRow tp fun r => { r with rxObjSync := r.rxObj }, E.ok)) d).1 = d1
  have : d1.m = d.m := by rw [← hd]; rfl
  dsimp only
  rw [← this]
  refine loop_pr (fun i d => andThen_pr ?_ fun d => ?_) _ _
  · exact .refl _
  · exact setRxMon_pr ..

theorem setTx_pr (me : MonEnv) (d : Mon) (tp nr : Nat) : SamePr d.m (setTx me d tp nr).1.m := by
  unfold setTx
  refine loop_pr (fun i d => andThen_pr ?_ fun d => ?_) _ _
  · exact .refl _
  · exact setTxMon_pr ..

theorem finish_pr (me : MonEnv) (d : Mon) (tp idx nr : Nat) (nrs : List Nat) : SamePr d.m (finish me d tp idx nr nrs).1.m := by
  rw [finish_eq]
  have h : SamePr d.m (onNode (finHead me.toEnv idx nr nrs) d).1.m := .refl _
  generalize onNode (finHead me.toEnv idx nr nrs) d = r at *
  exact andThen_pr h fun d => setSilentAwake_pr ..

theorem tail_pr (me : MonEnv) (tp nr : Nat) (d : Mon) : SamePr d.m (tail me tp nr d).1.m := by
  unfold tail
  have h := finish_pr me d tp d.s.node.nrMod nr ((List.range (tp + 1)).map fun i => (d.s.node.rows i).nr)
  generalize finish me d tp d.s.node.nrMod nr ((List.range (tp + 1)).map fun i => (d.s.node.rows i).nr) = r at *
  exact h

theorem setModule_pr (me : MonEnv) (d : Mon) (tp : Nat) (tpl : Row) (mt : MonTpl) (nr : Nat) (rx tx : Nat → Nat) :
    SamePr d.m (setModule me d tp tpl mt nr rx tx).1.m := by
  rw [setModule_eq]
  generalize hd : ({ s := { d.s with node := d.s.node.fillRow tp tpl (effNr tp nr) rx tx }, m := fillMon d.m tp mt } : Mon) = d1
  have h : SamePr d.m d1.m := by rw [← hd]; exact .refl _
  refine andThen_pr (h.trans (setTx_pr ..)) ?_
  · intro d
    refine andThen_pr ?_ fun d => ?_
    · exact setRx_pr ..
    · exact tail_pr ..

theorem addModule_pr (me : MonEnv) (d : Mon) (tpl : Row) (mt : MonTpl) (nr : Nat) (rx tx : Nat → Nat) :
    SamePr d.m (addModule me d tpl mt nr rx tx).1.m := by
  cases hf : (List.range me.maxMod).find? fun i => (d.s.node.rows i).typ = [] with
  | none =>
    have : addModule me d tpl mt nr rx tx = (d, E.maxModules) := by unfold addModule; rw [hf]
    rw [this]; exact .refl _
  | some i =>
    have h1 := setModule_pr me d i tpl mt nr rx tx
    have h2 := setModule_pr me d i tpl mt (125 + i) rx tx
    have hr : ∀ (d : Mon) e, (reportD me d e).m = d.m := fun _ _ => rfl
    unfold addModule
    rw [hf]
    dsimp only
    generalize setModule me d i tpl mt nr rx tx = r at *
    generalize setModule me d i tpl mt (125 + i) rx tx = r2 at *
    split
    · dsimp only; rw [hr]; exact h2
    · dsimp only; rw [hr]; exact h1

/-! ## Inputs -/

/-- the data part of the receive handler of the main controller -/
def mainPart (me : MonEnv) (d : Mon) (obj dlc id : Nat) (data : List Byte) : Mon :=
  if Node.bit obj &&& d.s.node.hw.isrRx ≠ 0 then
    match d.s.node.slotRow obj with
    | some tp => { d with s := (rxData me.toEnv d.s tp id dlc data).1 }
    | none => d
  else d

/-- the receive handler of the main controller in parts -/
theorem handlerMain_eq (me : MonEnv) (d : Mon) (now obj dlc id : Nat) (data : List Byte) :
    handlerMain me d now obj dlc id data =
      let d1 := { d with s := dataPart me.toEnv d.s obj dlc id data }
      let r := if obj = 0 then processRequest me d1 now dlc else some d1
      if obj = 2 ∨ (obj = 3 ∧ me.sysObj2 = true) then
        r.bind fun d => (sysMsg me d (sysNrOfId id) dlc data).map fun r => reportD me r.1 r.2
      else r := by
  have : mainPart me d obj dlc id data = { d with s := dataPart me.toEnv d.s obj dlc id data } := by
    unfold mainPart dataPart
    split
    · cases d.s.node.slotRow obj <;> rfl
    · rfl
  dsimp only
  rw [← this]
  unfold handlerMain mainPart
  rfl

/-- what a process request on the main controller does -/
theorem request_spec {me : MonEnv} {d d' : Mon} {now dlc : Nat} (h : processRequest me d now dlc = some d') :
    let k := checkImage me { d with s := reqRx d.s } now
    Light k.s.node d'.s.node ∧ d'.s.link = k.s.link ∧ d'.s.sys = k.s.sys ∧
    d'.s.sync = { k.s.sync with periode := me.t2ms (sub32 now k.s.sync.stamp), stamp := now
                                prCnt := u16 (k.s.sync.prCnt + 1), prDlc := dlc, prFlag := 0xFFFF } ∧
    d'.m = { k.m with mainTx := capture k.s.node k.s.node.tx.reg k.m.mainTx } ∧
    ∃ l, d'.s.node.log = l ++ k.s.node.log ∧ OnlyFrames l := by
  intro k
  unfold processRequest at h
  dsimp only at h
  have hk : checkImage me { d with s := reqRx d.s } now = k := rfl
  rw [hk] at h
  clear_value k
  split at h
  · cases h
  · next n hn =>
    have l1 := Light.sendProcess hn
    obtain ⟨l, hl, hf⟩ := sendProcess_log hn
    split at h
    · injection h with h; subst h
      obtain ⟨l', hl', hf'⟩ := sendOneError_log me.toEnv n
      refine ⟨l1.trans (sendOneError_light me.toEnv n), rfl, rfl, rfl, rfl, l' ++ l, ?_, ?_⟩
      · show (sendOneError me.toEnv n).1.log = _
        rw [hl', hl, List.append_assoc]
      · intro e he
        rcases List.mem_append.1 he with he | he
        · exact hf' e he
        · exact hf e he
    · injection h with h; subst h
      exact ⟨l1, rfl, rfl, rfl, rfl, l, hl, hf⟩

theorem MInv.light {me : MonEnv} {w : Bool × Bool} {d d' : Mon} (h : MInv me w d) (l : Light d.s.node d'.s.node)
    (sw : SameWire d.m d'.m) (c1 : d'.m.rxMonSync = d.m.rxMonSync) (c2 : d'.m.txMonSync = d.m.txMonSync)
    (c3 : d'.m.rxMon = d.m.rxMon) (c4 : d'.m.txMon = d.m.txMon) {w' : Bool × Bool}
    (f1 : d'.s.sync.prFlag = if w'.1 then 0xFFFF else 0) (f2 : d'.m.prFlag = if w'.2 then 0xFFFF else 0)
    (p1 : w'.1 = false → d'.s.sync.prCnt = 0) (p2 : w'.2 = false → d'.m.prCnt = 0) : MInv me w' d' := by
  refine ⟨h.table.light l, by rw [l.hw]; exact h.defs, ?_, ?_, f1, f2, p1, p2⟩
  · rw [l.rows]
    exact h.wired.same sw (by rw [c1, c2, c3, c4]; exact h.wired.conv)
  · rw [l.rows]; exact h.full.same sw

/-- inputs that touch neither the table nor the wiring nor the request state -/
theorem MInv.easy {me : MonEnv} {w : Bool × Bool} {d d' : Mon} (h : MInv me w d) (l : Light d.s.node d'.s.node)
    (sw : SameWire d.m d'.m) (c1 : d'.m.rxMonSync = d.m.rxMonSync) (c2 : d'.m.txMonSync = d.m.txMonSync)
    (c3 : d'.m.rxMon = d.m.rxMon) (c4 : d'.m.txMon = d.m.txMon)
    (f1 : d'.s.sync.prFlag = d.s.sync.prFlag) (f2 : d'.m.prFlag = d.m.prFlag)
    (p1 : d'.s.sync.prCnt = d.s.sync.prCnt) (p2 : d'.m.prCnt = d.m.prCnt) : MInv me w d' :=
  h.light l sw c1 c2 c3 c4 (f1.trans h.flag) (f2.trans h.mflag) (fun x => p1.trans (h.pcnt x)) (fun x => p2.trans (h.mpcnt x))

theorem reqRx_light (s : Slave) : Light s.node (reqRx s).node := by
  rw [reqRx_eq]; exact ⟨rfl, rfl, rfl, rfl, rfl, rfl, rfl, rfl⟩

theorem MInv.request {me : MonEnv} {w : Bool × Bool} {d d' : Mon} {now dlc : Nat} (h : MInv me w d)
    (hr : processRequest me d now dlc = some d') :
    MInv me (if w = (true, true) then (true, false) else (true, w.2)) d' := by
  obtain ⟨l, -, -, hs, hm, -⟩ := request_spec hr
  have kp := checkImage_kept me { d with s := reqRx d.s } now
  have l0 := reqRx_light d.s
  have fl : ({ d with s := reqRx d.s } : Mon).s.sync.prFlag = d.s.sync.prFlag := by
    show (reqRx d.s).sync.prFlag = _; rw [reqRx_eq]
  have fm : ({ d with s := reqRx d.s } : Mon).m = d.m := rfl
  have key : ∀ w', (checkImage me { d with s := reqRx d.s } now).m.prFlag = (if w'.2 then 0xFFFF else 0) → w'.1 = true →
      (w'.2 = false → (checkImage me { d with s := reqRx d.s } now).m.prCnt = 0) → MInv me w' d' := by
    intro w' h1 h2 h3
    have sw : SameWire d.m (checkImage me { d with s := reqRx d.s } now).m := kp.wire
    refine h.light ((l0.trans kp.light).trans l) ?_ ?_ ?_ ?_ ?_ ?_ ?_ ?_ ?_
    · rw [hm]; exact ⟨sw.1, sw.2, sw.3, sw.4, sw.5, sw.6⟩
    · rw [hm]; exact kp.rxMonSync
    · rw [hm]; exact kp.txMonSync
    · rw [hm]; exact kp.rxMon
    · rw [hm]; exact kp.txMon
    · rw [hs, h2]; rfl
    · rw [hm]; exact h1
    · intro x; rw [h2] at x; cases x
    · intro x; rw [hm]; exact h3 x
  by_cases hw : w = (true, true)
  · rw [if_pos hw]
    have a : d.s.sync.prFlag = 0xFFFF := by rw [h.flag, hw]; rfl
    have b : d.m.prFlag = 0xFFFF := by rw [h.mflag, hw]; rfl
    have := checkImage_clears me { d with s := reqRx d.s } now (by rw [fl]; exact a) b
    dsimp only at this
    exact key (true, false) this.2.1 rfl (fun _ => this.2.2.2.1)
  · rw [if_neg hw]
    have idle : ({ d with s := reqRx d.s } : Mon).s.sync.prFlag = 0 ∨ ({ d with s := reqRx d.s } : Mon).m.prFlag = 0 := by
      rw [fl, fm, h.flag, h.mflag]
      obtain ⟨a, b⟩ := w
      cases a
      · exact .inl rfl
      · cases b
        · exact .inr rfl
        · exact absurd rfl hw
    rw [checkImage_idle me _ now idle] at key
    exact key (true, w.2) h.mflag rfl h.mpcnt

/-- system messages -/
theorem sysMsg_sameHw {env : Env} {s s' : Slave} {nr dlc : Nat} {src : List Byte} {e : Err}
    (hc : at8 src 0 ≠ 0x20 ∧ at8 src 0 ≠ 0x31) (h : Slave.sysMsg env s nr dlc src = some (s', e)) :
    SameHw s.node s'.node := by
  by_cases ht : tableCmd (at8 src 0)
  · have hsa : ∀ st, SameHw s.node (sysSilentAwake env s src nr st).1.node := by
      intro st
      unfold sysSilentAwake
      split
      · split
        · next tp _ =>
          split
          · exact setSilentAwake_sameHw ..
          · exact .refl _
        · exact .refl _
      · exact .refl _
    have key : ∀ (st : Nat), (if nr = 1 then some (s, E.notAllowedBroadcast) else some (sysSilentAwake env s src nr st)) = some (s', e) →
        SameHw s.node s'.node := by
      intro st hs
      split at hs
      · have := congrArg Prod.fst (Option.some.inj hs); simp only at this; rw [← this]; exact .refl _
      · have := congrArg Prod.fst (Option.some.inj hs); simp only at this; rw [← this]; exact hsa st
    have triv : ∀ {y : Err}, some (s, y) = some (s', e) → SameHw s.node s'.node := by
      intro y h
      have := congrArg Prod.fst (Option.some.inj h); simp only at this; rw [← this]; exact .refl _
    unfold Slave.sysMsg at h
    split at h
    · exact triv h
    simp only at h
    generalize (if nr = 1 then none else findNr env s.node nr) = dst at h
    split at h
    · exact triv h
    split at h
    · exact triv h
    rcases ht with ht | ht | ht | ht
    · exact absurd ht hc.1
    · rw [ht] at h; exact key 0 h
    · rw [ht] at h; exact key 1 h
    · exact absurd ht hc.2
  · have l := (sysMsg_keeps h).2.1 ht
    exact ⟨l.hw, l.slots, l.ctrl, l.nrMod, l.chg, fun i => by rw [l.rows]⟩

theorem MInv.silentAwake {me : MonEnv} (he : MonEnvOk me) {w : Bool × Bool} {d : Mon} (h : MInv me w d) (tp st : Nat) :
    MInv me w (setSilentAwake me d tp st).1 := by
  have sh := setSilentAwake_sameHw me.toEnv d.s.node tp st
  have back : ∀ i, reg ((setSilentAwake me d tp st).1.s.node.rows i) = reg (d.s.node.rows i) := fun i => core_reg sh i
  refine ⟨?_, ?_, ?_, ?_, h.flag, ?_, h.pcnt, ?_⟩
  · exact h.table.step he.env (o := .silentAwake tp st) trivial
  · show DefInv me.toEnv (Node.setSilentAwake me.toEnv d.s.node tp st).1.hw
    rw [sh.hw]; exact h.defs
  · exact (h.wired.silentAwake tp st).congr back
  · exact (h.full.same (setSilentAwake_wire me d tp st)).congr back
  · rw [← h.mflag]
    unfold setSilentAwake
    dsimp only
    split
    · split
      · rfl
      · split <;> rfl
    · rfl
  · intro x
    rw [← h.mpcnt x]
    unfold setSilentAwake
    dsimp only
    split
    · split
      · rfl
      · split <;> rfl
    · rfl

theorem MInv.setMode {me : MonEnv} {w : Bool × Bool} {d : Mon} (h : MInv me w d) (md : Mode) :
    MInv me w (setMode me d md).1 :=
  h.easy (.refl _) ⟨rfl, rfl, rfl, rfl, rfl, rfl⟩ rfl rfl rfl rfl rfl rfl rfl rfl

/-- only rate and driver state differ -/
def SameRate (m m' : MonVars) : Prop := m' = { m with hwRate := m'.hwRate, drv := m'.drv }

theorem monBaud_same (l : Link) (m : MonVars) (b : Nat) : SameRate m (monBaud l m b).1 := by
  unfold monBaud SameRate; split <;> rfl

theorem SameRate.trans {a b c : MonVars} (h : SameRate a b) (g : SameRate b c) : SameRate a c := by
  unfold SameRate at *
  rw [g, h]

theorem setBaud_same (d : Mon) (b : Nat) : SameRate d.m (setBaud d b).1.m := by
  have step : ∀ (r : (Link × MonVars) × Err) (t : Nat), SameRate d.m r.1.2 → SameRate d.m (setBaud1 b r t).1.2 := by
    intro r t h
    unfold setBaud1
    split
    · dsimp only
      split
      · split
        · exact h.trans (monBaud_same ..)
        · exact h.trans (monBaud_same ..)
      · exact h
    · exact h
  have fold : ∀ (ts : List Nat) (r : (Link × MonVars) × Err), SameRate d.m r.1.2 →
      SameRate d.m (ts.foldl (setBaud1 b) r).1.2 := by
    intro ts
    induction ts with
    | nil => intro r h; exact h
    | cons t ts ih => intro r h; exact ih _ (step r t h)
  exact fold bdrTab ((d.s.link, d.m), E.ok) rfl

theorem SameRate.wire {m m' : MonVars} (h : SameRate m m') : SameWire m m' ∧ m'.rxMonSync = m.rxMonSync ∧
    m'.txMonSync = m.txMonSync ∧ m'.rxMon = m.rxMon ∧ m'.txMon = m.txMon ∧ m'.prFlag = m.prFlag ∧ m'.prCnt = m.prCnt ∧
    m'.prDlc = m.prDlc ∧ m'.rxCnt = m.rxCnt ∧ m'.txCnt = m.txCnt ∧ m'.mainTx = m.mainTx ∧ m'.monRx = m.monRx := by
  unfold SameRate at h
  rw [h]
  exact ⟨⟨rfl, rfl, rfl, rfl, rfl, rfl⟩, rfl, rfl, rfl, rfl, rfl, rfl, rfl, rfl, rfl, rfl, rfl⟩

theorem MInv.setBaud {me : MonEnv} {w : Bool × Bool} {d : Mon} (h : MInv me w d) (b : Nat) :
    MInv me w (setBaud d b).1 := by
  obtain ⟨a1, a2, a3, a4, a5, a6, a7, -⟩ := (setBaud_same d b).wire
  exact h.easy (.refl _) a1 a2 a3 a4 a5 rfl a6 rfl a7

theorem MInv.changeBaud {me : MonEnv} {w : Bool × Bool} {d : Mon} (h : MInv me w d) (b : Nat) :
    MInv me w (changeBaud me d b).1 := by
  unfold Mon.changeBaud
  dsimp only
  have h1 := h.setMode .stopped
  rw [if_pos (show (Mon.setMode me d .stopped).2 = E.ok from rfl)]
  have h2 := h1.setBaud b
  split
  · exact h2.setMode _
  · exact h2

theorem MInv.sysMsg {me : MonEnv} (he : MonEnvOk me) {w : Bool × Bool} {d d' : Mon} {nr dlc : Nat} {src : List Byte} {e : Err}
    (h : MInv me w d) (hc : at8 src 0 ≠ 0x20 ∧ at8 src 0 ≠ 0x31) (hs : Mon.sysMsg me d nr dlc src = some (d', e)) :
    MInv me w d' := by
  have lift : ((Slave.sysMsg me.toEnv d.s nr dlc src).map fun r => (({ d with s := r.1 } : Mon), r.2)) = some (d', e) → MInv me w d' := by
    intro hl
    obtain ⟨⟨s', e'⟩, h1, h2⟩ := Option.map_eq_some_iff.1 hl
    have hd : d' = { d with s := s' } := (congrArg Prod.fst h2).symm
    subst hd
    have sh := sysMsg_sameHw hc h1
    obtain ⟨⟨c, hcy⟩, -⟩ := sysMsg_keeps h1
    refine ⟨h.table.sysMsg he.env hc h1, ?_, h.wired.congr (core_reg sh), h.full.congr (core_reg sh), ?_, h.mflag, ?_, h.mpcnt⟩
    · dsimp only; rw [sh.hw]; exact h.defs
    · dsimp only; rw [hcy]; exact h.flag
    · dsimp only; rw [hcy]; exact h.pcnt
  unfold Mon.sysMsg at hs
  dsimp only at hs
  split at hs
  · exact lift hs
  split at hs
  · exact lift hs
  split at hs
  · exact lift hs
  split at hs
  · have := congrArg Prod.fst (Option.some.inj hs)
    dsimp only at this
    rw [← this]; exact h.changeBaud _
  split at hs
  · split at hs
    · have := congrArg Prod.fst (Option.some.inj hs)
      dsimp only at this
      rw [← this]; exact h.silentAwake he _ _
    · have := congrArg Prod.fst (Option.some.inj hs)
      dsimp only at this
      rw [← this]; exact h
  split at hs
  · next hx => exact absurd hx.1 hc.1
  · exact lift hs

theorem MInv.main {me : MonEnv} (he : MonEnvOk me) {w : Bool × Bool} {d d' : Mon} {now obj dlc id : Nat} {data : List Byte}
    (h : MInv me w d) (hb : BasicM me d (.main now obj dlc id data)) (hs : handlerMain me d now obj dlc id data = some d') :
    MInv me (pair w (.main now obj dlc id data)) d' := by
  rw [handlerMain_eq] at hs
  dsimp only at hs
  obtain ⟨dl, -, -, -, -, c, hc, -⟩ := dataPart_keeps me.toEnv d.s obj dlc id data
  have h1 : MInv me w { d with s := dataPart me.toEnv d.s obj dlc id data } :=
    h.easy dl (.refl _) rfl rfl rfl rfl (by dsimp only; rw [hc]) rfl (by dsimp only; rw [hc]) rfl
  generalize ({ d with s := dataPart me.toEnv d.s obj dlc id data } : Mon) = d1 at *
  have hr : ∀ d2, (if obj = 0 then processRequest me d1 now dlc else some d1) = some d2 →
      MInv me (pair w (.main now obj dlc id data)) d2 := by
    intro d2 h2
    unfold pair
    dsimp only
    split at h2
    · next ho => rw [if_pos ho]; exact h1.request h2
    · next ho => rw [if_neg ho]; injection h2 with h2; rw [← h2]; exact h1
  split at hs
  · next ho =>
    simp only [Option.bind_eq_some_iff, Option.map_eq_some_iff] at hs
    obtain ⟨d2, h2, ⟨r, e⟩, h3, h4⟩ := hs
    have := (hr d2 h2).sysMsg he (hb ho) h3
    rw [← h4]
    exact this.easy (Light.report me.toEnv r.s.node e) (.refl _) rfl rfl rfl rfl rfl rfl rfl rfl
  · exact hr d' hs

/-- what the monitor data functions leave alone -/
structure DataKept (d k : Mon) : Prop where
  s : k.s = d.s
  wire : SameWire d.m k.m
  rxMon : k.m.rxMon = d.m.rxMon
  txMon : k.m.txMon = d.m.txMon
  rxMonSync : k.m.rxMonSync = d.m.rxMonSync
  txMonSync : k.m.txMonSync = d.m.txMonSync
  mainTx : k.m.mainTx = d.m.mainTx
  prFlag : k.m.prFlag = d.m.prFlag
  prCnt : k.m.prCnt = d.m.prCnt
  prDlc : k.m.prDlc = d.m.prDlc

theorem DataKept.refl (d : Mon) : DataKept d d := ⟨rfl, .refl _, rfl, rfl, rfl, rfl, rfl, rfl, rfl, rfl⟩
theorem DataKept.trans {a b c : Mon} (h : DataKept a b) (g : DataKept b c) : DataKept a c :=
  ⟨g.1.trans h.1, h.2.trans g.2, g.3.trans h.3, g.4.trans h.4, g.5.trans h.5, g.6.trans h.6, g.7.trans h.7, g.8.trans h.8, g.9.trans h.9, g.10.trans h.10⟩

theorem rxDataMon_kept (me : MonEnv) (d : Mon) (tp id dlc : Nat) (data : List Byte) :
    DataKept d (rxDataMon me d tp id dlc data).1 := by
  unfold rxDataMon
  dsimp only
  split
  · exact .refl d
  split
  · exact .refl d
  split
  · exact ⟨rfl, ⟨rfl, rfl, rfl, rfl, rfl, rfl⟩, rfl, rfl, rfl, rfl, rfl, rfl, rfl, rfl⟩
  · exact ⟨rfl, ⟨rfl, rfl, rfl, rfl, rfl, rfl⟩, rfl, rfl, rfl, rfl, rfl, rfl, rfl, rfl⟩

theorem txDataMon_kept (me : MonEnv) (d : Mon) (tp id dlc : Nat) (data : List Byte) :
    DataKept d (txDataMon me d tp id dlc data).1 := by
  unfold txDataMon
  dsimp only
  split
  · exact .refl d
  split
  · exact .refl d
  split
  · exact ⟨rfl, ⟨rfl, rfl, rfl, rfl, rfl, rfl⟩, rfl, rfl, rfl, rfl, rfl, rfl, rfl, rfl⟩
  · split
    · exact ⟨rfl, ⟨rfl, rfl, rfl, rfl, rfl, rfl⟩, rfl, rfl, rfl, rfl, rfl, rfl, rfl, rfl⟩
    · exact .refl d

/-- the receive part of the monitor handler -/
def monRxPart (me : MonEnv) (d : Mon) (obj dlc id : Nat) (data : List Byte) : Mon :=
  if Node.bit obj &&& d.m.maskRx ≠ 0 then
    match slotOf d.m.rxSlots obj with
    | some tp => (rxDataMon me d tp id dlc data).1
    | none => d
  else d

/-- the read-back part of the monitor handler -/
def monTxPart (me : MonEnv) (d : Mon) (obj dlc id : Nat) (data : List Byte) : Mon :=
  if Node.bit obj &&& d.m.maskMain ≠ 0 then
    match slotOf d.m.txSlots obj with
    | some tp => (txDataMon me d tp id dlc data).1
    | none => d
  else d

theorem handlerMon_eq (me : MonEnv) (d : Mon) (now obj dlc id : Nat) (data : List Byte) :
    handlerMon me d now obj dlc id data =
      let d := monTxPart me (monRxPart me d obj dlc id data) obj dlc id data
      if obj = 1 then rxProcessMon (checkImage me d now) now dlc else d := by
  unfold handlerMon monTxPart monRxPart
  rfl

theorem monRxPart_kept (me : MonEnv) (d : Mon) (obj dlc id : Nat) (data : List Byte) :
    DataKept d (monRxPart me d obj dlc id data) := by
  unfold monRxPart
  split
  · split
    · exact rxDataMon_kept ..
    · exact .refl d
  · exact .refl d

theorem monTxPart_kept (me : MonEnv) (d : Mon) (obj dlc id : Nat) (data : List Byte) :
    DataKept d (monTxPart me d obj dlc id data) := by
  unfold monTxPart
  split
  · split
    · exact txDataMon_kept ..
    · exact .refl d
  · exact .refl d

theorem MInv.kept {me : MonEnv} {w : Bool × Bool} {d d' : Mon} (h : MInv me w d) (k : DataKept d d') : MInv me w d' :=
  h.easy (by rw [k.s]; exact .refl _) k.wire k.rxMonSync k.txMonSync k.rxMon k.txMon (by rw [k.s]) k.prFlag (by rw [k.s]) k.prCnt

theorem MInv.monRequest {me : MonEnv} {w : Bool × Bool} {d : Mon} (now dlc : Nat) (h : MInv me w d) :
    MInv me (if w = (true, true) then (false, true) else (w.1, true)) (rxProcessMon (checkImage me d now) now dlc) := by
  have kp := checkImage_kept me d now
  have key : ∀ w', (checkImage me d now).s.sync.prFlag = (if w'.1 then 0xFFFF else 0) → w'.2 = true →
      (w'.1 = false → (checkImage me d now).s.sync.prCnt = 0) → MInv me w' (rxProcessMon (checkImage me d now) now dlc) := by
    intro w' h1 h2 h3
    have sw := kp.wire
    refine h.light (d' := rxProcessMon (checkImage me d now) now dlc) kp.light ⟨sw.1, sw.2, sw.3, sw.4, sw.5, sw.6⟩ kp.rxMonSync
      kp.txMonSync kp.rxMon kp.txMon h1 ?_ h3 ?_
    · rw [h2]; rfl
    · intro x; rw [h2] at x; cases x
  by_cases hw : w = (true, true)
  · rw [if_pos hw]
    have a : d.s.sync.prFlag = 0xFFFF := by rw [h.flag, hw]; rfl
    have b : d.m.prFlag = 0xFFFF := by rw [h.mflag, hw]; rfl
    have := checkImage_clears me d now a b
    dsimp only at this
    exact key (false, true) this.1 rfl (fun _ => this.2.2.1)
  · rw [if_neg hw]
    have idle : d.s.sync.prFlag = 0 ∨ d.m.prFlag = 0 := by
      rw [h.flag, h.mflag]
      obtain ⟨a, b⟩ := w
      cases a
      · exact .inl rfl
      · cases b
        · exact .inr rfl
        · exact absurd rfl hw
    rw [checkImage_idle me _ now idle] at key ⊢
    exact key (w.1, true) h.flag rfl h.pcnt

theorem MInv.mon {me : MonEnv} {w : Bool × Bool} {d : Mon} (now obj dlc id : Nat) (data : List Byte)
    (h : MInv me w d) : MInv me (pair w (.mon now obj dlc id data)) (handlerMon me d now obj dlc id data) := by
  rw [handlerMon_eq]
  dsimp only
  have h1 := (h.kept (monRxPart_kept me d obj dlc id data)).kept (monTxPart_kept me _ obj dlc id data)
  unfold pair
  dsimp only
  split
  · exact h1.monRequest now dlc
  · exact h1

theorem MInv.lift {me : MonEnv} {w : Bool × Bool} {d d' : Mon} (h : MInv me w d) {x : In} (hq : Slave.Quiet me.toEnv x)
    (hs : Mon.lift me d x = some d') : MInv me w d' := by
  unfold Mon.lift at hs
  obtain ⟨s', h1, h2⟩ := Option.map_eq_some_iff.1 hs
  subst h2
  have q := quiet_step hq h1
  exact h.easy q.light (.refl _) rfl rfl rfl rfl q.flag rfl q.pcnt rfl

theorem MInv.step {me : MonEnv} (he : MonEnvOk me) {w : Bool × Bool} {d d' : Mon} {i : MIn} (h : MInv me w d)
    (hb : BasicM me d i) (hs : Mon.step me d i = some d') : MInv me (pair w i) d' := by
  cases i with
  | main now obj dlc id data => exact h.main he hb hs
  | mon now obj dlc id data =>
    have : d' = handlerMon me d now obj dlc id data := (Option.some.inj hs).symm
    rw [this]; exact h.mon ..
  | write p v =>
    have : d' = _ := (Option.some.inj hs).symm
    rw [this]
    exact h.easy ⟨rfl, rfl, rfl, rfl, rfl, rfl, rfl, rfl⟩ (.refl _) rfl rfl rfl rfl rfl rfl rfl rfl
  | add tpl mt nr rx tx =>
    have e : d' = _ := (Option.some.inj hs).symm
    obtain ⟨b1, b2, b3⟩ := hb
    obtain ⟨w1, w2⟩ := addModule_wired he.o32 tpl mt nr rx tx h.wired h.full b1.1 b2 b3
    have hsame := addModule_same me d tpl mt nr rx tx b3
    have keepM : (addModule me d tpl mt nr rx tx).1.m.prFlag = d.m.prFlag ∧ (addModule me d tpl mt nr rx tx).1.m.prCnt = d.m.prCnt := by
      exact addModule_pr me d tpl mt nr rx tx
    rw [e]
    refine ⟨?_, ?_, w1, w2, ?_, keepM.1.trans h.mflag, ?_, fun x => keepM.2.trans (h.mpcnt x)⟩
    · rw [hsame]; exact h.table.step he.env (o := .add tpl nr rx tx) b1
    · rw [hsame]; exact h.defs.step he.env (o := .add tpl nr rx tx) b1
    · rw [hsame]; exact h.flag
    · rw [hsame]; exact h.pcnt
  | silentAwakeBy typ nr st =>
    unfold Mon.step at hs
    dsimp only at hs
    split at hs
    · have e : d' = _ := (Option.some.inj hs).symm
      rw [e]; exact h.silentAwake he _ _
    · have e : d' = _ := (Option.some.inj hs).symm
      rw [e]; exact h
  | setActive typ =>
    unfold Mon.step at hs
    dsimp only at hs
    split at hs
    · next tp htp =>
      have e : d' = _ := (Option.some.inj hs).symm
      rw [e]
      have sh := syncOn_sameHw d.s.node tp
      have hn : (rowOn d tp).s.node = (Node.step me.toEnv d.s.node (.setActive typ)).1 := by
        show _ = (Node.setActive me.toEnv d.s.node typ).1
        unfold Node.setActive
        rw [htp]; rfl
      have back : ∀ i, reg ((rowOn d tp).s.node.rows i) = reg (d.s.node.rows i) := fun i => core_reg sh i
      refine ⟨?_, ?_, (h.wired.on ..).congr back, (h.full.same ⟨rfl, rfl, rfl, rfl, rfl, rfl⟩).congr back, h.flag, h.mflag, h.pcnt, h.mpcnt⟩
      · rw [hn]; exact h.table.step he.env (o := .setActive typ) hb
      · rw [hn]; exact h.defs.step he.env (o := .setActive typ) hb
    · have e : d' = _ := (Option.some.inj hs).symm
      rw [e]; exact h
  | setCritical typ =>
    unfold Mon.step at hs
    dsimp only at hs
    split at hs
    · next tp htp =>
      have e : d' = _ := (Option.some.inj hs).symm
      rw [e]
      have sh := syncOff_sameHw me.toEnv d.s.node tp
      have hn : (rowOff me d tp).s.node = (Node.step me.toEnv d.s.node (.setCritical typ)).1 := by
        show _ = (Node.setCritical me.toEnv d.s.node typ).1
        unfold Node.setCritical
        rw [htp]; rfl
      have back : ∀ i, reg ((rowOff me d tp).s.node.rows i) = reg (d.s.node.rows i) := fun i => core_reg sh i
      refine ⟨?_, ?_, (h.wired.off ..).congr back, (h.full.same ⟨rfl, rfl, rfl, rfl, rfl, rfl⟩).congr back, h.flag, h.mflag, h.pcnt, h.mpcnt⟩
      · rw [hn]; exact h.table.step he.env (o := .setCritical typ) hb
      · rw [hn]; exact h.defs.step he.env (o := .setCritical typ) hb
    · have e : d' = _ := (Option.some.inj hs).symm
      rw [e]; exact h
  | changeNr => exact absurd hb id
  | setMode md =>
    have e : d' = _ := (Option.some.inj hs).symm
    rw [e]; exact h.setMode _
  | setBaud b =>
    have e : d' = _ := (Option.some.inj hs).symm
    rw [e]; exact h.setBaud _
  | trigger now => exact h.lift (x := .trigger now) trivial hs
  | setCycle t => exact h.lift (x := .setCycle t) trivial hs
  | allCb f => exact h.lift (x := .allCb f) trivial hs
  | validCb typ nr f => exact h.lift (x := .validCb typ nr f) trivial hs
  | invalidCb typ nr f => exact h.lift (x := .invalidCb typ nr f) trivial hs
  | reqCb typ nr f => exact h.lift (x := .reqCb typ nr f) trivial hs

theorem MReach.inv {me : MonEnv} (he : MonEnvOk me) {w : Bool × Bool} {d : Mon} (h : MReach me w d) : MInv me w d := by
  induction h with
  | init mem baud h => exact MInv.init he h
  | step _ b s ih => exact ih.step he b s

end Mon
end LiCan
