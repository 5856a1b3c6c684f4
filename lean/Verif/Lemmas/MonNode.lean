import Verif.Model.Mon
import Verif.Lemmas.SlaveHw
/-! # Registration with a monitor controller: the main part is that of a slave without monitor -/
namespace LiCan
open Node Spec
namespace Mon

/-- on success `F` does to the main part what `G` does -/
def Same (F : Mon → Mon × Err) (G : Node → Node × Err) : Prop :=
  ∀ d, (F d).2 = E.ok → (G d.s.node).2 = E.ok ∧ (F d).1.s = { d.s with node := (G d.s.node).1 }

theorem andThen_ok {r : Mon × Err} {f : Mon → Mon × Err} (h : (andThen r f).2 = E.ok) :
    r.2 = E.ok ∧ (f r.1).2 = E.ok ∧ andThen r f = f r.1 := by
  unfold andThen at h ⊢
  split at h
  · next h0 => exact ⟨h0, h, by rw [if_pos h0]⟩
  · next h0 => exact absurd h h0

theorem thenOk_eq {r : Node × Err} (h : r.2 = E.ok) (f : Node → Node × Err) : thenOk r f = f r.1 := by
  unfold thenOk; rw [if_pos h]

theorem Same.andThen {F1 F2 : Mon → Mon × Err} {G1 G2 : Node → Node × Err} (h1 : Same F1 G1) (h2 : Same F2 G2) :
    Same (fun d => Mon.andThen (F1 d) F2) (fun n => thenOk (G1 n) G2) := by
  intro d h
  obtain ⟨a, b, c⟩ := andThen_ok h
  obtain ⟨a1, a2⟩ := h1 d a
  obtain ⟨b1, b2⟩ := h2 (F1 d).1 b
  dsimp only
  rw [c, thenOk_eq a1, b2]
  rw [a2] at b1 ⊢
  exact ⟨b1, rfl⟩

theorem Same.loop {f : Nat → Mon → Mon × Err} {g : Nat → Node → Node × Err} (h : ∀ i, Same (f i) (g i)) :
    ∀ is, Same (Mon.loop f is) (forErr g is) := by
  intro is
  induction is with
  | nil => intro d _; exact ⟨rfl, rfl⟩
  | cons i is ih => exact (h i).andThen ih

theorem Same.node (g : Node → Node × Err) : Same (onNode g) g := fun _ h => ⟨h, rfl⟩

/-- a function of the main part, then one of the monitor part -/
theorem Same.both (g : Node → Node × Err) (f : Mon → MonVars → MonVars × Err) :
    Same (fun d => Mon.andThen (onNode g d) fun d => onMon (f d) d) g := by
  intro d h
  obtain ⟨a, b, c⟩ := andThen_ok h
  refine ⟨a, ?_⟩
  dsimp only
  rw [c]
  rfl

theorem setTx_same (me : MonEnv) (tp nr : Nat) :
    Same (fun d => setTx me d tp nr) (fun n => Node.setTx me.toEnv n tp nr) := by
  intro d h
  exact Same.loop (fun i => Same.both _ _) (List.range (d.s.node.rows tp).txObj) d h

theorem setRx_same (me : MonEnv) (tp nr : Nat) :
    Same (fun d => setRx me d tp nr) (fun n => Node.setRx me.toEnv n tp nr) := by
  intro d h
  exact Same.loop (fun i => Same.both _ _) _ _ h

theorem setSilentAwake_same (me : MonEnv) (tp : Nat) (f : Node → Nat) :
    Same (fun d => setSilentAwake me d tp (f d.s.node)) (fun n => Node.setSilentAwake me.toEnv n tp (f n)) :=
  fun _ h => ⟨h, rfl⟩

/-- the end of a registration up to the silent/awake state -/
def finHead (env : Env) (idx nr : Nat) (nrs : List Nat) (n : Node) : Node × Err :=
  thenOk (thenOk (thenOk (defineCtrl env n idx nr) fun n => Node.define env n 6 ⟨0x602, acceptMask nrs, 8, .asyncRx⟩)
    fun n => Node.define env n 2 ⟨0x002, acceptMask nrs, 8, .rx false⟩) fun n =>
      if env.sysObj2 then Node.define env n 3 ⟨0x002, acceptMask nrs, 8, .rx false⟩ else (n, E.ok)

theorem finish_eq (me : MonEnv) (d : Mon) (tp idx nr : Nat) (nrs : List Nat) : finish me d tp idx nr nrs =
    andThen (onNode (finHead me.toEnv idx nr nrs) d) fun d => setSilentAwake me d tp (d.s.node.silent tp) := by
  unfold finish finHead
  dsimp only

theorem nodeFinish_eq (env : Env) (n : Node) (tp idx nr : Nat) (nrs : List Nat) : Node.finish env n tp idx nr nrs =
    thenOk (finHead env idx nr nrs n) fun n => Node.setSilentAwake env n tp (n.silent tp) := by
  unfold Node.finish finHead
  dsimp only

theorem finish_same (me : MonEnv) (tp idx nr : Nat) (nrs : List Nat) :
    Same (fun d => finish me d tp idx nr nrs) (fun n => Node.finish me.toEnv n tp idx nr nrs) := by
  have := Same.andThen (Same.node (finHead me.toEnv idx nr nrs)) (setSilentAwake_same me tp fun n => n.silent tp)
  intro d h
  dsimp only at h ⊢
  rw [finish_eq] at h ⊢
  rw [nodeFinish_eq]
  exact this d h

/-- the part of a registration after the receive objects -/
def tail (me : MonEnv) (tp nr : Nat) (d : Mon) : Mon × Err :=
  let r := finish me d tp d.s.node.nrMod nr ((List.range (tp + 1)).map fun i => (d.s.node.rows i).nr)
  ((onNode (fun n => ({ n with nrMod := n.nrMod + 1 }, E.ok)) r.1).1, r.2)

/-- the same in the main part -/
def nodeTail (env : Env) (tp nr : Nat) (n : Node) : Node × Err :=
  let r := Node.finish env n tp n.nrMod nr ((List.range (tp + 1)).map fun i => (n.rows i).nr)
  ({ r.1 with nrMod := r.1.nrMod + 1 }, r.2)

theorem tail_same (me : MonEnv) (tp nr : Nat) : Same (tail me tp nr) (nodeTail me.toEnv tp nr) := by
  intro d h
  unfold tail at h ⊢
  unfold nodeTail
  dsimp only at h ⊢
  have := finish_same me tp d.s.node.nrMod nr ((List.range (tp + 1)).map fun i => (d.s.node.rows i).nr) d h
  refine ⟨this.1, ?_⟩
  unfold onNode
  dsimp only at this ⊢
  rw [this.2]

theorem nodeSetModule_eq (env : Env) (n : Node) (tp : Nat) (tpl : Row) (nr : Nat) (rx tx : Nat → Nat) :
    Node.setModule env n tp tpl nr rx tx =
      thenOk (Node.setTx env (n.fillRow tp tpl (effNr tp nr) rx tx) tp (effNr tp nr))
        fun n => thenOk (Node.setRx env n tp (effNr tp nr)) (nodeTail env tp (effNr tp nr)) := by
  unfold Node.setModule nodeTail
  dsimp only

theorem setModule_eq (me : MonEnv) (d : Mon) (tp : Nat) (tpl : Row) (mt : MonTpl) (nr : Nat) (rx tx : Nat → Nat) :
    setModule me d tp tpl mt nr rx tx =
      andThen (setTx me { s := { d.s with node := d.s.node.fillRow tp tpl (effNr tp nr) rx tx }, m := fillMon d.m tp mt } tp (effNr tp nr))
        fun d => andThen (setRx me d tp (effNr tp nr)) (tail me tp (effNr tp nr)) := by
  unfold setModule tail
  dsimp only

theorem setModule_same (me : MonEnv) (d : Mon) (tp : Nat) (tpl : Row) (mt : MonTpl) (nr : Nat) (rx tx : Nat → Nat)
    (h : (setModule me d tp tpl mt nr rx tx).2 = E.ok) :
    (Node.setModule me.toEnv d.s.node tp tpl nr rx tx).2 = E.ok ∧
    (setModule me d tp tpl mt nr rx tx).1.s =
      { d.s with node := (Node.setModule me.toEnv d.s.node tp tpl nr rx tx).1 } := by
  rw [setModule_eq] at h ⊢
  rw [nodeSetModule_eq]
  exact Same.andThen (setTx_same me tp (effNr tp nr)) (Same.andThen (setRx_same me tp (effNr tp nr)) (tail_same me tp _)) _ h

/-- the error of the registration (reported as a system error, not returned by `lcsa_add_module`) -/
def regErr (me : MonEnv) (d : Mon) (tpl : Row) (mt : MonTpl) (nr : Nat) (rx tx : Nat → Nat) : Err :=
  match (List.range me.maxMod).find? fun i => (d.s.node.rows i).typ = [] with
  | none => E.ok
  | some i =>
    (setModule me d i tpl mt (if (List.range i).any fun j => (d.s.node.rows j).nr = nr then 125 + i else nr) rx tx).2

theorem addModule_same (me : MonEnv) (d : Mon) (tpl : Row) (mt : MonTpl) (nr : Nat) (rx tx : Nat → Nat)
    (h : regErr me d tpl mt nr rx tx = E.ok) :
    (addModule me d tpl mt nr rx tx).1.s = { d.s with node := (Node.addModule me.toEnv d.s.node tpl nr rx tx).1 } := by
  unfold regErr at h
  unfold addModule Node.addModule
  cases hf : (List.range me.maxMod).find? fun i => (d.s.node.rows i).typ = [] with
  | none => rfl
  | some i =>
    rw [hf] at h
    dsimp only at h ⊢
    split at h
    · next hx =>
      rw [if_pos hx, if_pos hx]
      obtain ⟨a, b⟩ := setModule_same me d i tpl mt (125 + i) rx tx h
      unfold reportD onNode
      dsimp only
      rw [b, a, h]
    · next hx =>
      rw [if_neg hx, if_neg hx]
      obtain ⟨a, b⟩ := setModule_same me d i tpl mt nr rx tx h
      unfold reportD onNode
      dsimp only
      rw [b, a, h]

/-! ## Wiring of the monitor controller -/

/-- what the monitor needs to know of a row -/
def reg (r : Row) : List Byte × Nat × Nat × Nat × (Nat → Nat) × (Nat → Nat) :=
  (r.typ, r.nr, r.rxObj, r.txObj, r.rxDlc, r.txDlc)

/-- the monitor object for receive object `j` -/
def rxD (r : Row) (j : Nat) : MonDef := ⟨syncRxId r.nr j, 0x7FF#16, r.rxDlc j, .rx true⟩
/-- the monitor object for transmit object `j` -/
def txD (r : Row) (j : Nat) : MonDef := ⟨syncTxId r.nr j, 0x7FF#16, r.txDlc j, .rxMain⟩

structure Wired (me : MonEnv) (R : Nat → Row) (m : MonVars) : Prop where
  one  : m.used 1 = true
  four : m.used 4 = true
  d1   : m.defs 1 = some ⟨0x001, 0x7FF#16, 1, .rx false⟩
  d4   : m.defs 4 = some ⟨0x002, 0x7FF#16, 8, .rx false⟩
  nd   : ((m.rxSlots ++ m.txSlots).map (·.1)).Nodup
  lt   : ∀ s ∈ m.rxSlots ++ m.txSlots, s.1 < me.nMon ∧ m.used s.1 = true ∧ s.1 ≠ 1 ∧ s.1 ≠ 4
  rx   : ∀ s ∈ m.rxSlots, (R s.2).typ ≠ [] ∧ ∃ j < (R s.2).rxObj, m.defs s.1 = some (rxD (R s.2) j)
  tx   : ∀ s ∈ m.txSlots, (R s.2).typ ≠ [] ∧ ∃ j < (R s.2).txObj, m.defs s.1 = some (txD (R s.2) j)
  all  : ∀ o < me.nMon, ∀ x, m.defs o = some x → o = 1 ∨ o = 4 ∨ o ∈ (m.rxSlots ++ m.txSlots).map (·.1)
  mrx  : ∀ o < 32, m.maskRx.getLsbD o = true ↔ o ∈ m.rxSlots.map (·.1)
  mtx  : ∀ o < 32, m.maskMain.getLsbD o = true ↔ o ∈ m.txSlots.map (·.1)
  conv : ∀ i, (R i).typ ≠ [] → ∀ j, m.rxMonSync i j ≠ .null ∧ m.txMonSync i j ≠ .null ∧ m.rxMon i j ≠ .null ∧
    m.txMon i j ≠ .null

/-- receive object `j` of row `i` is watched by the monitor -/
def HasRx (R : Nat → Row) (m : MonVars) (i j : Nat) : Prop := ∃ o, (o, i) ∈ m.rxSlots ∧ m.defs o = some (rxD (R i) j)
/-- transmit object `j` of row `i` is read back by the monitor -/
def HasTx (R : Nat → Row) (m : MonVars) (i j : Nat) : Prop := ∃ o, (o, i) ∈ m.txSlots ∧ m.defs o = some (txD (R i) j)

/-- every object of every registered module is watched -/
def Full (R : Nat → Row) (m : MonVars) : Prop := ∀ i, (R i).typ ≠ [] →
  (∀ j < (R i).rxObj, HasRx R m i j) ∧ (∀ j < (R i).txObj, HasTx R m i j)

theorem reg_fields {r r' : Row} (h : reg r' = reg r) : r'.typ = r.typ ∧ r'.nr = r.nr ∧ r'.rxObj = r.rxObj ∧
    r'.txObj = r.txObj ∧ r'.rxDlc = r.rxDlc ∧ r'.txDlc = r.txDlc := by
  simpa [reg] using h

theorem rxD_congr {r r' : Row} (h : reg r' = reg r) (j : Nat) : rxD r' j = rxD r j := by
  obtain ⟨-, h2, -, -, h5, -⟩ := reg_fields h
  unfold rxD; rw [h2, h5]

theorem txD_congr {r r' : Row} (h : reg r' = reg r) (j : Nat) : txD r' j = txD r j := by
  obtain ⟨-, h2, -, -, -, h6⟩ := reg_fields h
  unfold txD; rw [h2, h6]

theorem Wired.congr {me : MonEnv} {R R' : Nat → Row} {m : MonVars} (w : Wired me R m) (h : ∀ i, reg (R' i) = reg (R i)) :
    Wired me R' m := by
  obtain ⟨a, b, c, d, e, f, g, k, l, o, p, q⟩ := w
  refine ⟨a, b, c, d, e, f, ?_, ?_, l, o, p, ?_⟩
  · intro s hs
    obtain ⟨h1, j, h2, h3⟩ := g s hs
    have := reg_fields (h s.2)
    exact ⟨by rw [this.1]; exact h1, j, by rw [this.2.2.1]; exact h2, by rw [rxD_congr (h s.2)]; exact h3⟩
  · intro s hs
    obtain ⟨h1, j, h2, h3⟩ := k s hs
    have := reg_fields (h s.2)
    exact ⟨by rw [this.1]; exact h1, j, by rw [this.2.2.2.1]; exact h2, by rw [txD_congr (h s.2)]; exact h3⟩
  · intro i hi
    rw [(reg_fields (h i)).1] at hi
    exact q i hi

theorem Full.congr {R R' : Nat → Row} {m : MonVars} (w : Full R m) (h : ∀ i, reg (R' i) = reg (R i)) : Full R' m := by
  intro i hi
  have := reg_fields (h i)
  rw [this.1] at hi
  obtain ⟨a, b⟩ := w i hi
  refine ⟨fun j hj => ?_, fun j hj => ?_⟩
  · obtain ⟨o, h1, h2⟩ := a j (by rw [← this.2.2.1]; exact hj)
    exact ⟨o, h1, by rw [rxD_congr (h i)]; exact h2⟩
  · obtain ⟨o, h1, h2⟩ := b j (by rw [← this.2.2.2.1]; exact hj)
    exact ⟨o, h1, by rw [txD_congr (h i)]; exact h2⟩

/-- only the conversions differ -/
structure SameWire (m m' : MonVars) : Prop where
  used : m'.used = m.used
  defs : m'.defs = m.defs
  mrx  : m'.maskRx = m.maskRx
  mtx  : m'.maskMain = m.maskMain
  rx   : m'.rxSlots = m.rxSlots
  tx   : m'.txSlots = m.txSlots

theorem SameWire.refl (m : MonVars) : SameWire m m := ⟨rfl, rfl, rfl, rfl, rfl, rfl⟩
theorem SameWire.trans {a b c : MonVars} (h : SameWire a b) (g : SameWire b c) : SameWire a c :=
  ⟨g.1.trans h.1, g.2.trans h.2, g.3.trans h.3, g.4.trans h.4, g.5.trans h.5, g.6.trans h.6⟩

theorem Wired.same {me : MonEnv} {R : Nat → Row} {m m' : MonVars} (w : Wired me R m) (h : SameWire m m')
    (hc : ∀ i, (R i).typ ≠ [] → ∀ j, m'.rxMonSync i j ≠ .null ∧ m'.txMonSync i j ≠ .null ∧ m'.rxMon i j ≠ .null ∧
      m'.txMon i j ≠ .null) : Wired me R m' := by
  obtain ⟨a, b, c, d, e, f, g, k, l, o, p, -⟩ := w
  obtain ⟨h1, h2, h3, h4, h5, h6⟩ := h
  exact ⟨by rw [h1]; exact a, by rw [h1]; exact b, by rw [h2]; exact c, by rw [h2]; exact d, by rw [h5, h6]; exact e,
    by rw [h5, h6, h1]; exact f, by rw [h5, h2]; exact g, by rw [h6, h2]; exact k, by rw [h5, h6, h2]; exact l,
    by rw [h3, h5]; exact o, by rw [h4, h6]; exact p, hc⟩

theorem Full.same {R : Nat → Row} {m m' : MonVars} (w : Full R m) (h : SameWire m m') : Full R m' := by
  intro i hi
  obtain ⟨a, b⟩ := w i hi
  unfold HasRx HasTx at *
  rw [h.rx, h.tx, h.defs]
  exact ⟨a, b⟩

theorem Wired.on {me : MonEnv} {R : Nat → Row} {m : MonVars} (w : Wired me R m) (tp a b : Nat) :
    Wired me R (monOn m tp a b) := by
  refine w.same ⟨rfl, rfl, rfl, rfl, rfl, rfl⟩ fun i hi j => ?_
  obtain ⟨h1, h2, h3, h4⟩ := w.conv i hi j
  unfold monOn
  dsimp only
  by_cases e : i = tp
  · subst e
    simp only [upd_same, firstK]
    refine ⟨?_, ?_, h3, h4⟩ <;> split <;> assumption
  · simp only [upd_other _ _ e]; exact ⟨h1, h2, h3, h4⟩

theorem Wired.off {me : MonEnv} {R : Nat → Row} {m : MonVars} (w : Wired me R m) (tp a b : Nat) :
    Wired me R (monOff m tp a b) := by
  refine w.same ⟨rfl, rfl, rfl, rfl, rfl, rfl⟩ fun i hi j => ?_
  obtain ⟨h1, h2, h3, h4⟩ := w.conv i hi j
  unfold monOff
  dsimp only
  by_cases e : i = tp
  · subst e
    simp only [upd_same, firstK]
    refine ⟨?_, ?_, h3, h4⟩ <;> split <;> first | assumption | exact fun h => Conv.noConfusion h
  · simp only [upd_other _ _ e]; exact ⟨h1, h2, h3, h4⟩

theorem setSilentAwake_wire (me : MonEnv) (d : Mon) (tp st : Nat) :
    SameWire d.m (setSilentAwake me d tp st).1.m := by
  unfold setSilentAwake
  dsimp only
  split
  · split
    · exact ⟨rfl, rfl, rfl, rfl, rfl, rfl⟩
    · split
      · exact ⟨rfl, rfl, rfl, rfl, rfl, rfl⟩
      · exact .refl _
  · exact .refl _

theorem Wired.silentAwake {me : MonEnv} {R : Nat → Row} {d : Mon} (w : Wired me R d.m) (tp st : Nat) :
    Wired me R (setSilentAwake me d tp st).1.m := by
  unfold setSilentAwake
  dsimp only
  split
  · split
    · exact w.off ..
    · split
      · exact w.on ..
      · exact w
  · exact w

/-- growth of the monitor tables -/
structure Grow (m m' : MonVars) : Prop where
  rx : ∀ s ∈ m.rxSlots, s ∈ m'.rxSlots
  tx : ∀ s ∈ m.txSlots, s ∈ m'.txSlots
  used : ∀ o, m.used o = true → m'.used o = true ∧ m'.defs o = m.defs o

theorem Grow.refl (m : MonVars) : Grow m m := ⟨fun _ h => h, fun _ h => h, fun _ h => ⟨h, rfl⟩⟩
theorem Grow.trans {a b c : MonVars} (h : Grow a b) (g : Grow b c) : Grow a c :=
  ⟨fun s hs => g.rx s (h.rx s hs), fun s hs => g.tx s (h.tx s hs), fun o ho =>
    ⟨(g.used o (h.used o ho).1).1, (g.used o (h.used o ho).1).2.trans (h.used o ho).2⟩⟩

theorem HasRx.grow {me : MonEnv} {R : Nat → Row} {m m' : MonVars} (w : Wired me R m) (g : Grow m m') {i j : Nat}
    (h : HasRx R m i j) : HasRx R m' i j := by
  obtain ⟨o, h1, h2⟩ := h
  have := (w.lt _ (List.mem_append_left _ h1)).2.1
  exact ⟨o, g.rx _ h1, by rw [(g.used o this).2]; exact h2⟩

theorem HasTx.grow {me : MonEnv} {R : Nat → Row} {m m' : MonVars} (w : Wired me R m) (g : Grow m m') {i j : Nat}
    (h : HasTx R m i j) : HasTx R m' i j := by
  obtain ⟨o, h1, h2⟩ := h
  have := (w.lt _ (List.mem_append_right _ h1)).2.1
  exact ⟨o, g.tx _ h1, by rw [(g.used o this).2]; exact h2⟩

theorem nextFree_some {me : MonEnv} {m : MonVars} {o : Nat} (h : nextFree me m = some o) : o < me.nMon ∧ m.used o = false := by
  unfold nextFree at h
  have a := List.mem_of_find?_eq_some h
  have b := List.find?_some h
  simp only [List.mem_range] at a
  exact ⟨a, by simpa using b⟩

theorem mThen_ok {r : MonVars × Err} {f : MonVars → MonVars × Err} (h : (mThen r f).2 = E.ok) :
    r.2 = E.ok ∧ (f r.1).2 = E.ok ∧ mThen r f = f r.1 := by
  unfold mThen at h ⊢
  split at h
  · next h0 => exact ⟨h0, h, by rw [if_pos h0]⟩
  · next h0 => exact absurd h h0

theorem setRxMon_ok {me : MonEnv} {tp nr i dlc : Nat} {m : MonVars} (h : (setRxMon me tp nr i dlc m).2 = E.ok) :
    ∃ o, o < me.nMon ∧ m.used o = false ∧ (setRxMon me tp nr i dlc m).1 =
      { m with rxObj := upd m.rxObj tp (upd (m.rxObj tp) i o)
               used := upd m.used o true, cfgN := m.cfgN + 1
               defs := upd m.defs o (some ⟨syncRxId nr i, 0x7FF#16, dlc, .rx true⟩)
               maskRx := m.maskRx ||| Node.bit o
               rxSlots := m.rxSlots ++ [(o, tp)] } := by
  unfold setRxMon at h ⊢
  split at h
  · exact absurd (show E.noMsgObjFree = E.ok from h) (by decide)
  · next o ho =>
    obtain ⟨h1, h2⟩ := nextFree_some ho
    refine ⟨o, h1, h2, ?_⟩
    obtain ⟨a, b, c⟩ := mThen_ok h
    rw [c]
    unfold define at a b ⊢
    rw [if_neg (by omega)] at a b ⊢
    dsimp only at a b ⊢
    split at a
    · next hk =>
      rw [if_pos hk] at b ⊢
      unfold addRxSlot at b ⊢
      dsimp only at b ⊢
      split at b
      · next hl => rw [if_pos hl]; rfl
      · exact absurd (show E.monRxDataCnfg = E.ok from b) (by decide)
    · exact absurd (show E.initFailed = E.ok from a) (by decide)

theorem setTxMon_ok {me : MonEnv} {tp nr i dlc : Nat} {m : MonVars} (h : (setTxMon me tp nr i dlc m).2 = E.ok) :
    ∃ o, o < me.nMon ∧ m.used o = false ∧ (setTxMon me tp nr i dlc m).1 =
      { m with txObj := upd m.txObj tp (upd (m.txObj tp) i o)
               used := upd m.used o true, cfgN := m.cfgN + 1
               defs := upd m.defs o (some ⟨syncTxId nr i, 0x7FF#16, dlc, .rxMain⟩)
               maskMain := m.maskMain ||| Node.bit o
               txSlots := m.txSlots ++ [(o, tp)] } := by
  unfold setTxMon at h ⊢
  split at h
  · exact absurd (show E.noMsgObjFree = E.ok from h) (by decide)
  · next o ho =>
    obtain ⟨h1, h2⟩ := nextFree_some ho
    refine ⟨o, h1, h2, ?_⟩
    obtain ⟨a, b, c⟩ := mThen_ok h
    rw [c]
    unfold define at a b ⊢
    rw [if_neg (by omega)] at a b ⊢
    dsimp only at a b ⊢
    split at a
    · next hk =>
      rw [if_pos hk] at b ⊢
      unfold addTxSlot at b ⊢
      dsimp only at b ⊢
      split at b
      · next hl => rw [if_pos hl]; rfl
      · exact absurd (show E.monTxDataCnfg = E.ok from b) (by decide)
    · exact absurd (show E.initFailed = E.ok from a) (by decide)

theorem Grow.fresh {m m' : MonVars} {o : Nat} {x : MonDef} (hu : m.used o = false) (h1 : m'.used = upd m.used o true)
    (h2 : m'.defs = upd m.defs o (some x)) (h3 : ∀ s ∈ m.rxSlots, s ∈ m'.rxSlots) (h4 : ∀ s ∈ m.txSlots, s ∈ m'.txSlots) :
    Grow m m' := by
  refine ⟨h3, h4, fun p hp => ?_⟩
  have : p ≠ o := fun e => by rw [e, hu] at hp; cases hp
  rw [h1, h2, upd_other _ _ this, upd_other _ _ this]
  exact ⟨hp, rfl⟩

theorem mask_or (x : BitVec 32) (o p : Nat) (hp : p < 32) (ho : o < 32) :
    (x ||| Node.bit o).getLsbD p = true ↔ x.getLsbD p = true ∨ p = o := by
  rw [BitVec.getLsbD_or, bit_get _ _ ho, Bool.or_eq_true, decide_eq_true_eq]

theorem Wired.addRx {me : MonEnv} (h32 : me.nMon ≤ 32) {R : Nat → Row} {m : MonVars} (w : Wired me R m) {tp i o : Nat} {q : Nat → Nat → Nat} {c : Nat}
    (ho : o < me.nMon) (hu : m.used o = false) (ht : (R tp).typ ≠ []) (hi : i < (R tp).rxObj) :
    let m' := { m with rxObj := q, used := upd m.used o true, cfgN := c
                       defs := upd m.defs o (some (rxD (R tp) i)), maskRx := m.maskRx ||| Node.bit o
                       rxSlots := m.rxSlots ++ [(o, tp)] }
    Wired me R m' ∧ Grow m m' ∧ HasRx R m' tp i := by
  intro m'
  have g : Grow m m' := .fresh hu rfl rfl (fun s hs => List.mem_append_left _ hs) (fun s hs => hs)
  have n1 : o ≠ 1 := fun e => by rw [e, w.one] at hu; cases hu
  have n4 : o ≠ 4 := fun e => by rw [e, w.four] at hu; cases hu
  have fresh : ∀ s ∈ m.rxSlots ++ m.txSlots, s.1 ≠ o := fun s hs e => by
    have := (w.lt s hs).2.1; rw [e, hu] at this; cases this
  have mem : ∀ s, s ∈ m'.rxSlots ++ m'.txSlots ↔ s ∈ m.rxSlots ++ m.txSlots ∨ s = (o, tp) := by
    intro s
    simp only [m', List.mem_append, List.mem_singleton]
    constructor
    · rintro ((h | h) | h)
      · exact .inl (.inl h)
      · exact .inr h
      · exact .inl (.inr h)
    · rintro ((h | h) | h)
      · exact .inl (.inl h)
      · exact .inr h
      · exact .inl (.inr h)
  have new : m'.defs o = some (rxD (R tp) i) := upd_same ..
  have old : ∀ p, p ≠ o → m'.defs p = m.defs p := fun p hp => upd_other _ _ hp
  refine ⟨⟨(g.used 1 w.one).1, (g.used 4 w.four).1, (g.used 1 w.one).2.trans w.d1, (g.used 4 w.four).2.trans w.d4, ?_, ?_, ?_, ?_, ?_, ?_, ?_, w.conv⟩, g, o, ?_, new⟩
  · have : ((m'.rxSlots ++ m'.txSlots).map (·.1)).Perm (o :: (m.rxSlots ++ m.txSlots).map (·.1)) := by
      simp only [m', List.map_append, List.map_cons, List.map_nil, List.append_assoc]
      exact List.perm_middle
    rw [this.nodup_iff, List.nodup_cons]
    refine ⟨?_, w.nd⟩
    intro hm
    obtain ⟨s, hs, e⟩ := List.mem_map.1 hm
    exact fresh s hs e
  · intro s hs
    rcases (mem s).1 hs with h | h
    · obtain ⟨a, b, c⟩ := w.lt s h
      exact ⟨a, (g.used _ b).1, c⟩
    · subst h; exact ⟨ho, upd_same .., n1, n4⟩
  · intro s hs
    rcases List.mem_append.1 hs with h | h
    · obtain ⟨a, j, b, c⟩ := w.rx s h
      exact ⟨a, j, b, by rw [old _ (fresh s (List.mem_append_left _ h))]; exact c⟩
    · simp only [List.mem_singleton] at h; subst h; exact ⟨ht, i, hi, new⟩
  · intro s hs
    obtain ⟨a, j, b, c⟩ := w.tx s hs
    exact ⟨a, j, b, by rw [old _ (fresh s (List.mem_append_right _ hs))]; exact c⟩
  · intro p hp x hx
    by_cases e : p = o
    · subst e; right; right
      exact List.mem_map.2 ⟨(p, tp), (mem _).2 (.inr rfl), rfl⟩
    · rw [old _ e] at hx
      rcases w.all p hp x hx with h | h | h
      · exact .inl h
      · exact .inr (.inl h)
      · obtain ⟨s, hs, e⟩ := List.mem_map.1 h
        exact .inr (.inr (List.mem_map.2 ⟨s, (mem s).2 (.inl hs), e⟩))
  · intro p hp
    show (m.maskRx ||| Node.bit o).getLsbD p = true ↔ p ∈ (m.rxSlots ++ [(o, tp)]).map (·.1)
    rw [mask_or _ _ _ hp (by omega), w.mrx p hp]
    simp
  · intro p hp; exact w.mtx p hp
  · show (o, tp) ∈ m.rxSlots ++ [(o, tp)]
    simp

theorem Wired.addTx {me : MonEnv} (h32 : me.nMon ≤ 32) {R : Nat → Row} {m : MonVars} (w : Wired me R m) {tp i o : Nat} {q : Nat → Nat → Nat} {c : Nat}
    (ho : o < me.nMon) (hu : m.used o = false) (ht : (R tp).typ ≠ []) (hi : i < (R tp).txObj) :
    let m' := { m with txObj := q, used := upd m.used o true, cfgN := c
                       defs := upd m.defs o (some (txD (R tp) i)), maskMain := m.maskMain ||| Node.bit o
                       txSlots := m.txSlots ++ [(o, tp)] }
    Wired me R m' ∧ Grow m m' ∧ HasTx R m' tp i := by
  intro m'
  have g : Grow m m' := .fresh hu rfl rfl (fun s hs => hs) (fun s hs => List.mem_append_left _ hs)
  have n1 : o ≠ 1 := fun e => by rw [e, w.one] at hu; cases hu
  have n4 : o ≠ 4 := fun e => by rw [e, w.four] at hu; cases hu
  have fresh : ∀ s ∈ m.rxSlots ++ m.txSlots, s.1 ≠ o := fun s hs e => by
    have := (w.lt s hs).2.1; rw [e, hu] at this; cases this
  have mem : ∀ s, s ∈ m'.rxSlots ++ m'.txSlots ↔ s ∈ m.rxSlots ++ m.txSlots ∨ s = (o, tp) := by
    intro s
    simp only [m', List.mem_append, List.mem_singleton]
    constructor
    · rintro (h | h | h)
      · exact .inl (.inl h)
      · exact .inl (.inr h)
      · exact .inr h
    · rintro ((h | h) | h)
      · exact .inl h
      · exact .inr (.inl h)
      · exact .inr (.inr h)
  have new : m'.defs o = some (txD (R tp) i) := upd_same ..
  have old : ∀ p, p ≠ o → m'.defs p = m.defs p := fun p hp => upd_other _ _ hp
  refine ⟨⟨(g.used 1 w.one).1, (g.used 4 w.four).1, (g.used 1 w.one).2.trans w.d1, (g.used 4 w.four).2.trans w.d4, ?_, ?_, ?_, ?_, ?_, ?_, ?_, w.conv⟩, g, o, ?_, new⟩
  · have : ((m'.rxSlots ++ m'.txSlots).map (·.1)).Perm (o :: (m.rxSlots ++ m.txSlots).map (·.1)) := by
      simp only [m', List.map_append, List.map_cons, List.map_nil, ← List.append_assoc]
      exact List.perm_append_singleton _ _
    rw [this.nodup_iff, List.nodup_cons]
    refine ⟨?_, w.nd⟩
    intro hm
    obtain ⟨s, hs, e⟩ := List.mem_map.1 hm
    exact fresh s hs e
  · intro s hs
    rcases (mem s).1 hs with h | h
    · obtain ⟨a, b, c⟩ := w.lt s h
      exact ⟨a, (g.used _ b).1, c⟩
    · subst h; exact ⟨ho, upd_same .., n1, n4⟩
  · intro s hs
    obtain ⟨a, j, b, c⟩ := w.rx s hs
    exact ⟨a, j, b, by rw [old _ (fresh s (List.mem_append_left _ hs))]; exact c⟩
  · intro s hs
    rcases List.mem_append.1 hs with h | h
    · obtain ⟨a, j, b, c⟩ := w.tx s h
      exact ⟨a, j, b, by rw [old _ (fresh s (List.mem_append_right _ h))]; exact c⟩
    · simp only [List.mem_singleton] at h; subst h; exact ⟨ht, i, hi, new⟩
  · intro p hp x hx
    by_cases e : p = o
    · subst e; right; right
      exact List.mem_map.2 ⟨(p, tp), (mem _).2 (.inr rfl), rfl⟩
    · rw [old _ e] at hx
      rcases w.all p hp x hx with h | h | h
      · exact .inl h
      · exact .inr (.inl h)
      · obtain ⟨s, hs, e⟩ := List.mem_map.1 h
        exact .inr (.inr (List.mem_map.2 ⟨s, (mem s).2 (.inl hs), e⟩))
  · intro p hp; exact w.mrx p hp
  · intro p hp
    show (m.maskMain ||| Node.bit o).getLsbD p = true ↔ p ∈ (m.txSlots ++ [(o, tp)]).map (·.1)
    rw [mask_or _ _ _ hp (by omega), w.mtx p hp]
    simp
  · show (o, tp) ∈ m.txSlots ++ [(o, tp)]
    simp

/-- loops over the objects of a module -/
theorem loop_ind {f : Nat → Mon → Mon × Err} (I : Mon → Prop) (Le : Mon → Mon → Prop) (hr : ∀ d, Le d d)
    (ht : ∀ a b c, Le a b → Le b c → Le a c) (H : Nat → Mon → Prop)
    (hH : ∀ i d d', I d → Le d d' → H i d → H i d') : ∀ (is : List Nat),
    (∀ i ∈ is, ∀ d, I d → (f i d).2 = E.ok → I (f i d).1 ∧ Le d (f i d).1 ∧ H i (f i d).1) →
    ∀ d, I d → (loop f is d).2 = E.ok →
      I (loop f is d).1 ∧ Le d (loop f is d).1 ∧ ∀ i ∈ is, H i (loop f is d).1 := by
  intro is
  induction is with
  | nil => intro _ d h _; exact ⟨h, hr d, by simp⟩
  | cons i is ih =>
    intro hs d h hk
    obtain ⟨a, b, c⟩ := andThen_ok (r := f i d) (f := loop f is) hk
    have e : loop f (i :: is) d = loop f is (f i d).1 := c
    obtain ⟨h1, h2, h3⟩ := hs i (by simp) d h a
    obtain ⟨k1, k2, k3⟩ := ih (fun j hj => hs j (by simp [hj])) _ h1 b
    rw [e]
    refine ⟨k1, ht _ _ _ h2 k2, ?_⟩
    intro j hj
    rcases List.mem_cons.1 hj with hj | hj
    · subst hj; exact hH _ _ _ h1 k2 h3
    · exact k3 j hj

theorem txCnfg_rows (env : Env) (n : Node) (tp obj nr : Nat) : (txCnfg env n tp obj nr).1.rows = n.rows := by
  unfold txCnfg; split
  · rfl
  · split <;> rfl

theorem define_rows (env : Env) (n : Node) (o : Nat) (d : ObjDef) : (Node.define env n o d).1.rows = n.rows := by
  unfold Node.define; split
  · rfl
  · dsimp only; split <;> rfl

theorem addSlot_rows (env : Env) (n : Node) (o tp : Nat) : (addSlot env n o tp).1.rows = n.rows := by
  unfold addSlot; split <;> rfl

theorem setRow_reg (n : Node) (tp : Nat) (f : Row → Row) (h : ∀ r, reg (f r) = reg r) (i : Nat) :
    reg ((n.setRow tp f).rows i) = reg (n.rows i) := by
  unfold Node.setRow
  by_cases e : i = tp
  · subst e; simp only [upd_same]; exact h _
  · simp only [upd_other _ _ e]

theorem thenOk_rows {r : Node × Err} {f : Node → Node × Err} (h : ∀ n, (f n).1.rows = n.rows) :
    (thenOk r f).1.rows = r.1.rows := by
  unfold thenOk; split
  · exact h _
  · rfl

theorem setRx1_reg (env : Env) (tp nr i : Nat) (n : Node) (x : Nat) :
    reg ((setRx1 env tp nr i n).1.rows x) = reg (n.rows x) := by
  unfold setRx1
  dsimp only
  split
  · dsimp only
    rw [setRow_reg _ _ _ (by intro r; rfl)]
  · rw [thenOk_rows fun n => addSlot_rows .., define_rows]
    rw [setRow_reg _ _ _ (by intro r; rfl), setRow_reg _ _ _ (by intro r; rfl)]

/-- the invariant inside a registration -/
def Mid (me : MonEnv) (R : Nat → Row) (d : Mon) : Prop := Wired me R d.m ∧ ∀ x, reg (d.s.node.rows x) = reg (R x)

theorem setTx_mid {me : MonEnv} (h32 : me.nMon ≤ 32) {R : Nat → Row} {d : Mon} {tp : Nat} (w : Mid me R d)
    (ht : (R tp).typ ≠ []) (h : (setTx me d tp (R tp).nr).2 = E.ok) :
    Mid me R (setTx me d tp (R tp).nr).1 ∧ Grow d.m (setTx me d tp (R tp).nr).1.m ∧
    ∀ j < (R tp).txObj, HasTx R (setTx me d tp (R tp).nr).1.m tp j := by
  have hobj : (d.s.node.rows tp).txObj = (R tp).txObj := (reg_fields (w.2 tp)).2.2.2.1
  have := loop_ind (f := fun i d =>
    andThen (onNode (fun n => txCnfg me.toEnv
        (n.setRow tp fun r => { r with txDlcSync := upd r.txDlcSync i (r.txDlc i) }) tp i (R tp).nr) d) fun d =>
      onMon (setTxMon me tp (R tp).nr i ((d.s.node.rows tp).txDlc i)) d) (Mid me R) (fun a b => Grow a.m b.m)
    (fun d => .refl _) (fun _ _ _ h g => h.trans g) (fun j d => HasTx R d.m tp j) (fun i d d' h g => HasTx.grow h.1 g)
    (List.range (d.s.node.rows tp).txObj) ?_ d w h
  · refine ⟨this.1, this.2.1, fun j hj => this.2.2 j ?_⟩
    rw [List.mem_range, hobj]; exact hj
  · intro i hi d w hk
    rw [List.mem_range, hobj] at hi
    obtain ⟨a, b, c⟩ := andThen_ok hk
    rw [c]
    have hrow : ∀ x, reg (((onNode (fun n => txCnfg me.toEnv
        (n.setRow tp fun r => { r with txDlcSync := upd r.txDlcSync i (r.txDlc i) }) tp i (R tp).nr) d).1.s.node.rows) x) = reg (R x) := by
      intro x
      unfold onNode
      dsimp only
      rw [txCnfg_rows, setRow_reg _ _ _ (by intro r; rfl)]
      exact w.2 x
    have hm : (onNode (fun n => txCnfg me.toEnv
        (n.setRow tp fun r => { r with txDlcSync := upd r.txDlcSync i (r.txDlc i) }) tp i (R tp).nr) d).1.m = d.m := rfl
    generalize (onNode (fun n => txCnfg me.toEnv
        (n.setRow tp fun r => { r with txDlcSync := upd r.txDlcSync i (r.txDlc i) }) tp i (R tp).nr) d).1 = d1 at *
    unfold onMon at b ⊢
    dsimp only at b ⊢
    obtain ⟨o, h1, h2, h3⟩ := setTxMon_ok b
    rw [h3]
    have hd := (reg_fields (hrow tp)).2.2.2.2.2
    have hw : Wired me R d1.m := by rw [hm]; exact w.1
    rw [hd] at h3 ⊢
    have := hw.addTx h32 (tp := tp) (i := i) (o := o) (q := upd d1.m.txObj tp (upd (d1.m.txObj tp) i o)) (c := d1.m.cfgN + 1) h1 h2 ht hi
    dsimp only at this
    unfold txD at this
    refine ⟨⟨this.1, hrow⟩, ?_, this.2.2⟩
    rw [← hm]; exact this.2.1

theorem setRx_mid {me : MonEnv} (h32 : me.nMon ≤ 32) {R : Nat → Row} {d : Mon} {tp : Nat} (w : Mid me R d)
    (ht : (R tp).typ ≠ []) (h : (setRx me d tp (R tp).nr).2 = E.ok) :
    Mid me R (setRx me d tp (R tp).nr).1 ∧ Grow d.m (setRx me d tp (R tp).nr).1.m ∧
    ∀ j < (R tp).rxObj, HasRx R (setRx me d tp (R tp).nr).1.m tp j := by
  unfold setRx at h ⊢
  dsimp only at h ⊢
  have w0 : Mid me R (onNode (fun n => (n.setRow tp fun r => { r with rxObjSync := r.rxObj }, E.ok)) d).1 := by
    refine ⟨w.1, fun x => ?_⟩
    unfold onNode
    dsimp only
    rw [setRow_reg _ _ _ (by intro r; rfl)]; exact w.2 x
  have hm0 : (onNode (fun n => (n.setRow tp fun r => { r with rxObjSync := r.rxObj }, E.ok)) d).1.m = d.m := rfl
  rw [← hm0]
  generalize (onNode (fun n => (n.setRow tp fun r => { r with rxObjSync := r.rxObj }, E.ok)) d).1 = d at *
  have hobj : (d.s.node.rows tp).rxObj = (R tp).rxObj := (reg_fields (w0.2 tp)).2.2.1
  have := loop_ind (f := fun i d =>
    andThen (onNode (setRx1 me.toEnv tp (R tp).nr i) d) fun d =>
      onMon (setRxMon me tp (R tp).nr i ((d.s.node.rows tp).rxDlc i)) d) (Mid me R) (fun a b => Grow a.m b.m)
    (fun d => .refl _) (fun _ _ _ h g => h.trans g) (fun j d => HasRx R d.m tp j) (fun i d d' h g => HasRx.grow h.1 g)
    (List.range (d.s.node.rows tp).rxObj) ?_ d w0 h
  · refine ⟨this.1, this.2.1, fun j hj => this.2.2 j ?_⟩
    rw [List.mem_range, hobj]; exact hj
  · intro i hi d w hk
    rw [List.mem_range, hobj] at hi
    obtain ⟨a, b, c⟩ := andThen_ok hk
    rw [c]
    have hrow : ∀ x, reg (((onNode (setRx1 me.toEnv tp (R tp).nr i) d).1.s.node.rows) x) = reg (R x) := by
      intro x
      unfold onNode
      dsimp only
      rw [setRx1_reg]
      exact w.2 x
    have hm : (onNode (setRx1 me.toEnv tp (R tp).nr i) d).1.m = d.m := rfl
    generalize (onNode (setRx1 me.toEnv tp (R tp).nr i) d).1 = d1 at *
    unfold onMon at b ⊢
    dsimp only at b ⊢
    obtain ⟨o, h1, h2, h3⟩ := setRxMon_ok b
    rw [h3]
    have hd := (reg_fields (hrow tp)).2.2.2.2.1
    have hw : Wired me R d1.m := by rw [hm]; exact w.1
    rw [hd] at h3 ⊢
    have := hw.addRx h32 (tp := tp) (i := i) (o := o) (q := upd d1.m.rxObj tp (upd (d1.m.rxObj tp) i o)) (c := d1.m.cfgN + 1) h1 h2 ht hi
    dsimp only at this
    unfold rxD at this
    refine ⟨⟨this.1, hrow⟩, ?_, this.2.2⟩
    rw [← hm]; exact this.2.1

theorem defineCtrl_rows (env : Env) (n : Node) (idx nr : Nat) : (defineCtrl env n idx nr).1.rows = n.rows := by
  unfold defineCtrl; split
  · rfl
  · split
    · rfl
    · exact define_rows ..

theorem core_reg {n n' : Node} (h : SameHw n n') (i : Nat) : reg (n'.rows i) = reg (n.rows i) := by
  obtain ⟨a, b, c, d, e, f, -⟩ := h.fields i
  unfold reg; rw [a, b, c, d, e, f]

theorem tail_mid {me : MonEnv} {R : Nat → Row} {d : Mon} {tp nr : Nat} (w : Mid me R d)
    (h : (tail me tp nr d).2 = E.ok) : Mid me R (tail me tp nr d).1 ∧ SameWire d.m (tail me tp nr d).1.m := by
  unfold tail at h ⊢
  dsimp only at h ⊢
  generalize (List.range (tp + 1)).map (fun i => (d.s.node.rows i).nr) = nrs at *
  generalize d.s.node.nrMod = idx at *
  rw [finish_eq] at h ⊢
  obtain ⟨a, b, c⟩ := andThen_ok h
  rw [c]
  have hm : (onNode (finHead me.toEnv idx nr nrs) d).1.m = d.m := rfl
  have hrow : ∀ x, reg ((onNode (finHead me.toEnv idx nr nrs) d).1.s.node.rows x) = reg (R x) := by
    intro x
    unfold onNode finHead
    dsimp only
    rw [thenOk_rows, thenOk_rows, thenOk_rows, defineCtrl_rows]
    · exact w.2 x
    · intro n; exact define_rows ..
    · intro n; exact define_rows ..
    · intro n; split
      · exact define_rows ..
      · rfl
  generalize (onNode (finHead me.toEnv idx nr nrs) d).1 = d1 at *
  have w1 : Wired me R d1.m := by rw [hm]; exact w.1
  refine ⟨⟨w1.silentAwake _ _, fun x => ?_⟩, ?_⟩
  · show reg ((Node.setSilentAwake me.toEnv d1.s.node tp (d1.s.node.silent tp)).1.rows x) = _
    rw [core_reg (setSilentAwake_sameHw ..)]; exact hrow x
  · rw [← hm]; exact setSilentAwake_wire ..

/-- the template of the monitor conversions has no `NULL` -/
def MonTplOk (t : MonTpl) : Prop :=
  ∀ j, t.rxMon j ≠ .null ∧ t.txMon j ≠ .null ∧ t.rxMonSync j ≠ .null ∧ t.txMonSync j ≠ .null

theorem reg_wired {me : MonEnv} (h32 : me.nMon ≤ 32) {R : Nat → Row} {d : Mon} {tp nr : Nat} (m0 : Mid me R d)
    (hnr : (R tp).nr = nr) (htyp : (R tp).typ ≠ [])
    (f0 : ∀ i, i ≠ tp → (R i).typ ≠ [] → (∀ j < (R i).rxObj, HasRx R d.m i j) ∧ (∀ j < (R i).txObj, HasTx R d.m i j))
    (h : (andThen (setTx me d tp nr) fun d => andThen (setRx me d tp nr) (tail me tp nr)).2 = E.ok) :
    Wired me (andThen (setTx me d tp nr) fun d => andThen (setRx me d tp nr) (tail me tp nr)).1.s.node.rows
      (andThen (setTx me d tp nr) fun d => andThen (setRx me d tp nr) (tail me tp nr)).1.m ∧
    Full (andThen (setTx me d tp nr) fun d => andThen (setRx me d tp nr) (tail me tp nr)).1.s.node.rows
      (andThen (setTx me d tp nr) fun d => andThen (setRx me d tp nr) (tail me tp nr)).1.m := by
  subst hnr
  obtain ⟨a, h2, c⟩ := andThen_ok h
  rw [c]
  obtain ⟨m1, g1, t1⟩ := setTx_mid h32 m0 htyp a
  generalize (setTx me d tp (R tp).nr).1 = d1 at *
  obtain ⟨a, b, c⟩ := andThen_ok h2
  rw [c]
  obtain ⟨m2, g2, t2⟩ := setRx_mid h32 m1 htyp a
  generalize (setRx me d1 tp (R tp).nr).1 = d2 at *
  obtain ⟨m3, s3⟩ := tail_mid m2 b
  generalize (tail me tp (R tp).nr d2).1 = d3 at *
  have full : Full R d2.m := by
    intro i hi
    by_cases e : i = tp
    · subst e
      exact ⟨t2, fun j hj => (t1 j hj).grow m1.1 g2⟩
    · obtain ⟨p, q⟩ := f0 i e hi
      exact ⟨fun j hj => ((p j hj).grow m0.1 g1).grow m1.1 g2, fun j hj => ((q j hj).grow m0.1 g1).grow m1.1 g2⟩
  exact ⟨m3.1.congr m3.2, (full.same s3).congr m3.2⟩

theorem setModule_wired {me : MonEnv} (h32 : me.nMon ≤ 32) {d : Mon} (tp : Nat) (tpl : Row) (mt : MonTpl) (nr : Nat)
    (rx tx : Nat → Nat) (w : Wired me d.s.node.rows d.m) (f : Full d.s.node.rows d.m)
    (hfree : (d.s.node.rows tp).typ = []) (ht : tpl.typ ≠ []) (hmt : MonTplOk mt)
    (h : (setModule me d tp tpl mt nr rx tx).2 = E.ok) :
    Wired me (setModule me d tp tpl mt nr rx tx).1.s.node.rows (setModule me d tp tpl mt nr rx tx).1.m ∧
    Full (setModule me d tp tpl mt nr rx tx).1.s.node.rows (setModule me d tp tpl mt nr rx tx).1.m := by
  rw [setModule_eq] at h ⊢
  -- the rows after the copy of the template
  let R := (d.s.node.fillRow tp tpl (effNr tp nr) rx tx).rows
  have hR : R tp = { tpl with nr := effNr tp nr, rx := rx, tx := tx, txObjSync := tpl.txObj } := by
    show upd _ _ _ _ = _
    exact upd_same ..
  have hR' : ∀ i, i ≠ tp → R i = d.s.node.rows i := fun i hi => by
    show upd _ _ _ _ = _
    exact upd_other _ _ hi
  have hnr : (R tp).nr = effNr tp nr := by rw [hR]
  have htyp : (R tp).typ ≠ [] := by rw [hR]; exact ht
  have sw : SameWire d.m (fillMon d.m tp mt) := ⟨rfl, rfl, rfl, rfl, rfl, rfl⟩
  have wR : Wired me R d.m → True := fun _ => trivial
  have other : ∀ s ∈ d.m.rxSlots ++ d.m.txSlots, s.2 ≠ tp := by
    intro s hs e
    rcases List.mem_append.1 hs with h | h
    · exact (w.rx s h).1 (by rw [e]; exact hfree)
    · exact (w.tx s h).1 (by rw [e]; exact hfree)
  have w0 : Wired me R (fillMon d.m tp mt) := by
    refine ⟨w.one, w.four, w.d1, w.d4, w.nd, w.lt, ?_, ?_, w.all, w.mrx, w.mtx, ?_⟩
    · intro s hs
      rw [hR' _ (other s (List.mem_append_left _ hs))]; exact w.rx s hs
    · intro s hs
      rw [hR' _ (other s (List.mem_append_right _ hs))]; exact w.tx s hs
    · intro i hi j
      unfold fillMon
      dsimp only
      by_cases e : i = tp
      · subst e
        simp only [upd_same]
        obtain ⟨a, b, c, d⟩ := hmt j
        exact ⟨c, d, a, b⟩
      · simp only [upd_other _ _ e]
        rw [hR' _ e] at hi
        exact w.conv i hi j
  have m0 : Mid me R { s := { d.s with node := d.s.node.fillRow tp tpl (effNr tp nr) rx tx }, m := fillMon d.m tp mt } :=
    ⟨w0, fun _ => rfl⟩
  have f0 : ∀ i, i ≠ tp → (R i).typ ≠ [] →
      (∀ j < (R i).rxObj, HasRx R (fillMon d.m tp mt) i j) ∧ (∀ j < (R i).txObj, HasTx R (fillMon d.m tp mt) i j) := by
    intro i hi
    unfold HasRx HasTx
    rw [hR' _ hi]
    exact f i
  exact reg_wired h32 m0 hnr htyp f0 h

theorem addModule_wired {me : MonEnv} (h32 : me.nMon ≤ 32) {d : Mon} (tpl : Row) (mt : MonTpl) (nr : Nat)
    (rx tx : Nat → Nat) (w : Wired me d.s.node.rows d.m) (f : Full d.s.node.rows d.m) (ht : tpl.typ ≠ [])
    (hmt : MonTplOk mt) (h : regErr me d tpl mt nr rx tx = E.ok) :
    Wired me (addModule me d tpl mt nr rx tx).1.s.node.rows (addModule me d tpl mt nr rx tx).1.m ∧
    Full (addModule me d tpl mt nr rx tx).1.s.node.rows (addModule me d tpl mt nr rx tx).1.m := by
  have key : ∀ (e : Mon) (x : Err), Wired me e.s.node.rows e.m ∧ Full e.s.node.rows e.m →
      Wired me (reportD me e x).s.node.rows (reportD me e x).m ∧ Full (reportD me e x).s.node.rows (reportD me e x).m := by
    intro e x h
    unfold reportD onNode
    dsimp only
    rw [(Light.report me.toEnv e.s.node x).rows]
    exact h
  unfold regErr at h
  unfold addModule
  cases hi : (List.range me.maxMod).find? fun i => (d.s.node.rows i).typ = [] with
  | none => exact ⟨w, f⟩
  | some i =>
    rw [hi] at h
    have hfree : (d.s.node.rows i).typ = [] := by simpa using List.find?_some hi
    dsimp only at h ⊢
    split at h
    · next hx =>
      rw [if_pos hx]
      exact key _ _ (setModule_wired h32 i tpl mt (125 + i) rx tx w f hfree ht hmt h)
    · next hx =>
      rw [if_neg hx]
      exact key _ _ (setModule_wired h32 i tpl mt nr rx tx w f hfree ht hmt h)

end Mon
end LiCan
