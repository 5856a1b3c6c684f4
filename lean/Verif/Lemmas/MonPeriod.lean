import Verif.Lemmas.MonRun
/-! # The monitored process image: what happens between two requests -/
namespace LiCan
open Node Spec Slave
namespace Mon

/-- no request and nothing that changes the module table -/
def QuietM (me : MonEnv) : MIn → Prop
  | .main _ obj _ _ data => obj ≠ 0 ∧ (obj = 2 ∨ (obj = 3 ∧ me.sysObj2 = true) → ¬ tableCmd (at8 data 0))
  | .mon _ obj _ _ _ => obj ≠ 1
  | .add .. => False
  | .silentAwakeBy .. => False
  | .setActive _ => False
  | .setCritical _ => False
  | .changeNr .. => False
  | _ => True

theorem QuietM.basic {me : MonEnv} {x : MIn} (h : QuietM me x) (d : Mon) : BasicM me d x := by
  cases x <;> simp only [QuietM, BasicM] at *
  intro ho
  have := h.2 ho
  unfold tableCmd at this
  exact ⟨fun e => this (.inl e), fun e => this (.inr (.inr (.inr e)))⟩

theorem QuietM.pair {me : MonEnv} {x : MIn} (h : QuietM me x) (w : Bool × Bool) : Spec.pair w x = w := by
  cases x <;> simp only [QuietM] at h <;> first | rfl | (unfold Spec.pair; dsimp only; rw [if_neg (by first | exact h.1 | exact h)])

/-- counted by the main controller -/
def cMain (me : MonEnv) (d : Mon) (i j : Nat) : MIn → Bool
  | .main _ obj dlc id _ => counts me.toEnv d.s.node i j obj dlc id
  | _ => false

/-- accepted by the monitor for receive object `j` of row `i` -/
def accRx (me : MonEnv) (d : Mon) (i j obj dlc id : Nat) : Bool :=
  (Node.bit obj &&& d.m.maskRx ≠ 0) && (slotOf d.m.rxSlots obj == some i) && (syncObjOfId id == j) &&
  (!me.chk || (syncNrOfId id == (d.s.node.rows i).nr && dlc == (d.s.node.rows i).rxDlcSync j))

/-- accepted by the monitor as read-back of transmit object `j` of row `i` -/
def accTx (me : MonEnv) (d : Mon) (i j obj dlc id : Nat) : Bool :=
  (Node.bit obj &&& d.m.maskMain ≠ 0) && (slotOf d.m.txSlots obj == some i) && (syncObjOfId id == j) &&
  (!me.chk || (txNrOfId id == (d.s.node.rows i).nr && dlc == (d.s.node.rows i).txDlcSync j))

/-- the bytes a monitor conversion leaves -/
def convM (me : MonEnv) (c : Conv) (can old : List Byte) (dlc : Nat) : List Byte :=
  match c with
  | .app k => (me.monConv k can dlc old).1
  | _ => old

theorem callMon_eq {me : MonEnv} {c : Conv} (h : c ≠ .null) (can old : List Byte) (dlc : Nat) :
    ∃ e, callMon me c can old dlc = some (convM me c can old dlc, e) := by
  cases c with
  | null => exact absurd rfl h
  | dummy => exact ⟨_, rfl⟩
  | app k => exact ⟨_, rfl⟩

def cRx (me : MonEnv) (d : Mon) (i j : Nat) : MIn → Bool
  | .mon _ obj dlc id _ => accRx me d i j obj dlc id
  | _ => false

def cTx (me : MonEnv) (d : Mon) (i j : Nat) : MIn → Bool
  | .mon _ obj dlc id data => accTx me d i j obj dlc id &&
      ((d.m.mainTx i j).take dlc == (convM me (d.m.txMonSync i j) data me.tmp dlc).take dlc)
  | _ => false

def rxObj (me : MonEnv) (d : Mon) (i j : Nat) (old : List Byte) : MIn → List Byte
  | .mon _ obj dlc id data => if accRx me d i j obj dlc id then convM me (d.m.rxMonSync i j) data old dlc else old
  | _ => old

/-- what a list of quiet inputs does -/
structure Per (me : MonEnv) (d d' : Mon) (xs : List MIn) : Prop where
  light : Light d.s.node d'.s.node
  wire  : SameWire d.m d'.m
  c1    : d'.m.rxMonSync = d.m.rxMonSync
  c2    : d'.m.txMonSync = d.m.txMonSync
  mainTx : d'.m.mainTx = d.m.mainTx
  pcnt  : d'.s.sync.prCnt = d.s.sync.prCnt
  mpcnt : d'.m.prCnt = d.m.prCnt
  pdlc  : d'.s.sync.prDlc = d.s.sync.prDlc
  mpdlc : d'.m.prDlc = d.m.prDlc
  first : d'.s.sync.first = d.s.sync.first
  cnt   : ∀ i j, d.s.sync.cnt i j < 65536 → d'.s.sync.cnt i j = (d.s.sync.cnt i j + xs.countP (cMain me d i j)) % 65536
  rxCnt : ∀ i j, d.m.rxCnt i j < 65536 → d'.m.rxCnt i j = (d.m.rxCnt i j + xs.countP (cRx me d i j)) % 65536
  txCnt : ∀ i j, d.m.txCnt i j < 65536 → d'.m.txCnt i j = (d.m.txCnt i j + xs.countP (cTx me d i j)) % 65536
  monRx : ∀ i j, d'.m.monRx i j = xs.foldl (rxObj me d i j) (d.m.monRx i j)

theorem cMain_congr {me : MonEnv} {d d' : Mon} (l : Light d.s.node d'.s.node) (i j : Nat) :
    cMain me d' i j = cMain me d i j := by
  funext x; cases x <;> simp only [cMain, counts_congr l]

theorem accRx_congr {me : MonEnv} {d d' : Mon} (l : Light d.s.node d'.s.node) (w : SameWire d.m d'.m) (i j : Nat) :
    accRx me d' i j = accRx me d i j := by
  funext o dl id; unfold accRx; rw [l.rows, w.mrx, w.rx]

theorem accTx_congr {me : MonEnv} {d d' : Mon} (l : Light d.s.node d'.s.node) (w : SameWire d.m d'.m) (i j : Nat) :
    accTx me d' i j = accTx me d i j := by
  funext o dl id; unfold accTx; rw [l.rows, w.mtx, w.tx]

theorem cRx_congr {me : MonEnv} {d d' : Mon} (l : Light d.s.node d'.s.node) (w : SameWire d.m d'.m) (i j : Nat) :
    cRx me d' i j = cRx me d i j := by
  funext x; cases x <;> simp only [cRx, accRx_congr l w]

theorem cTx_congr {me : MonEnv} {d d' : Mon} (l : Light d.s.node d'.s.node) (w : SameWire d.m d'.m)
    (c : d'.m.txMonSync = d.m.txMonSync) (t : d'.m.mainTx = d.m.mainTx) (i j : Nat) :
    cTx me d' i j = cTx me d i j := by
  funext x; cases x <;> simp only [cTx, accTx_congr l w, c, t]

theorem rxObj_congr {me : MonEnv} {d d' : Mon} (l : Light d.s.node d'.s.node) (w : SameWire d.m d'.m)
    (c : d'.m.rxMonSync = d.m.rxMonSync) (i j : Nat) : rxObj me d' i j = rxObj me d i j := by
  funext o x; cases x <;> simp only [rxObj, accRx_congr l w, c]

theorem Per.append {me : MonEnv} {d d1 d2 : Mon} {xs ys : List MIn} (a : Per me d d1 xs) (b : Per me d1 d2 ys) :
    Per me d d2 (xs ++ ys) := by
  refine ⟨a.light.trans b.light, a.wire.trans b.wire, b.c1.trans a.c1, b.c2.trans a.c2, b.mainTx.trans a.mainTx,
    b.pcnt.trans a.pcnt, b.mpcnt.trans a.mpcnt, b.pdlc.trans a.pdlc, b.mpdlc.trans a.mpdlc, b.first.trans a.first, ?_, ?_, ?_, ?_⟩
  · intro i j hlt
    have e1 := a.cnt i j hlt
    have e2 := b.cnt i j (by rw [e1]; omega)
    rw [e2, e1, cMain_congr a.light, List.countP_append]; omega
  · intro i j hlt
    have e1 := a.rxCnt i j hlt
    have e2 := b.rxCnt i j (by rw [e1]; omega)
    rw [e2, e1, cRx_congr a.light a.wire, List.countP_append]; omega
  · intro i j hlt
    have e1 := a.txCnt i j hlt
    have e2 := b.txCnt i j (by rw [e1]; omega)
    rw [e2, e1, cTx_congr a.light a.wire a.c2 a.mainTx, List.countP_append]; omega
  · intro i j
    rw [b.monRx, a.monRx, rxObj_congr a.light a.wire a.c1, List.foldl_append]

/-- an input that only changes the main part or driver variables -/
theorem Per.easy {me : MonEnv} {d d' : Mon} {x : MIn} (l : Light d.s.node d'.s.node) (sr : SameRate d.m d'.m)
    (p1 : d'.s.sync.prCnt = d.s.sync.prCnt) (p2 : d'.s.sync.prDlc = d.s.sync.prDlc) (p3 : d'.s.sync.first = d.s.sync.first)
    (c : ∀ i j, d.s.sync.cnt i j < 65536 → d'.s.sync.cnt i j = (d.s.sync.cnt i j + if cMain me d i j x then 1 else 0) % 65536)
    (hx : ∀ t o l id data, x ≠ .mon t o l id data) : Per me d d' [x] := by
  obtain ⟨a1, a2, a3, -, -, -, a7, a8, a9, a10, a11, a12⟩ := sr.wire
  have n1 : ∀ i j, cRx me d i j x = false := by intro i j; cases x <;> first | rfl | exact (hx _ _ _ _ _ rfl).elim
  have n2 : ∀ i j, cTx me d i j x = false := by intro i j; cases x <;> first | rfl | exact (hx _ _ _ _ _ rfl).elim
  have n3 : ∀ i j o, rxObj me d i j o x = o := by intro i j o; cases x <;> first | rfl | exact (hx _ _ _ _ _ rfl).elim
  refine ⟨l, a1, a2, a3, a11, p1, a7, p2, a8, p3, ?_, ?_, ?_, ?_⟩
  · intro i j hlt
    rw [c i j hlt]
    cases h : cMain me d i j x <;> simp [h]
  · intro i j hlt; rw [a9]; simp [n1, Nat.mod_eq_of_lt hlt]
  · intro i j hlt; rw [a10]; simp [n2, Nat.mod_eq_of_lt hlt]
  · intro i j; rw [a12]; simp [n3]

theorem SameRate.refl (m : MonVars) : SameRate m m := rfl

theorem slot_mem {l : List (Nat × Nat)} {obj i : Nat} (h : slotOf l obj = some i) : ∃ o, (o, i) ∈ l := by
  unfold slotOf at h
  obtain ⟨⟨o, i'⟩, h1, h2⟩ := Option.map_eq_some_iff.1 h
  dsimp only at h2; subst h2
  exact ⟨o, List.mem_of_find?_eq_some h1⟩

theorem monRxPart_vals {me : MonEnv} {d : Mon} (w : Wired me d.s.node.rows d.m) (obj dlc id : Nat) (data : List Byte) :
    (monRxPart me d obj dlc id data).m.txCnt = d.m.txCnt ∧
    (∀ i j, (monRxPart me d obj dlc id data).m.rxCnt i j =
      if accRx me d i j obj dlc id then u16 (d.m.rxCnt i j + 1) else d.m.rxCnt i j) ∧
    (∀ i j, (monRxPart me d obj dlc id data).m.monRx i j =
      if accRx me d i j obj dlc id then convM me (d.m.rxMonSync i j) data (d.m.monRx i j) dlc else d.m.monRx i j) := by
  unfold monRxPart
  by_cases hb : Node.bit obj &&& d.m.maskRx ≠ 0
  · rw [if_pos hb]
    cases hs : slotOf d.m.rxSlots obj with
    | none =>
      have : ∀ i j, accRx me d i j obj dlc id = false := by intro i j; unfold accRx; rw [hs]; simp
      dsimp only
      simp [this]
    | some tp =>
      obtain ⟨o, ho⟩ := slot_mem hs
      have hreg := (w.rx _ ho).1
      have hc : (d.m.rxMonSync tp (syncObjOfId id)) ≠ .null := (w.conv tp hreg _).1
      have acc : ∀ i j, accRx me d i j obj dlc id = true ↔ (i = tp ∧ j = syncObjOfId id ∧
          ¬ (me.chk ∧ syncNrOfId id ≠ (d.s.node.rows tp).nr) ∧ ¬ (me.chk ∧ dlc ≠ (d.s.node.rows tp).rxDlcSync (syncObjOfId id))) := by
        intro i j
        unfold accRx
        rw [hs]
        simp only [Bool.and_eq_true, decide_eq_true_eq, beq_iff_eq, Bool.or_eq_true, Bool.not_eq_true', Option.some.injEq]
        constructor
        · rintro ⟨⟨⟨-, h2⟩, h3⟩, h4⟩
          subst h2 h3
          refine ⟨rfl, rfl, ?_, ?_⟩
          · rintro ⟨a, b⟩; rcases h4 with h | h
            · rw [a] at h; cases h
            · exact b h.1
          · rintro ⟨a, b⟩; rcases h4 with h | h
            · rw [a] at h; cases h
            · exact b h.2
        · rintro ⟨rfl, rfl, h1, h2⟩
          refine ⟨⟨⟨hb, rfl⟩, rfl⟩, ?_⟩
          cases hk : me.chk with
          | false => exact .inl rfl
          | true =>
            right
            constructor
            · by_cases e : syncNrOfId id = (d.s.node.rows i).nr
              · exact e
              · exact absurd ⟨hk, e⟩ h1
            · by_cases e : dlc = (d.s.node.rows i).rxDlcSync (syncObjOfId id)
              · exact e
              · exact absurd ⟨hk, e⟩ h2
      dsimp only
      unfold rxDataMon
      dsimp only
      by_cases h1 : me.chk ∧ syncNrOfId id ≠ (d.s.node.rows tp).nr
      · rw [if_pos h1]
        have : ∀ i j, accRx me d i j obj dlc id = false := by
          intro i j; rw [← Bool.not_eq_true, acc]; exact fun h => h.2.2.1 h1
        simp [this]
      · rw [if_neg h1]
        by_cases h2 : me.chk ∧ dlc ≠ (d.s.node.rows tp).rxDlcSync (syncObjOfId id)
        · rw [if_pos h2]
          have : ∀ i j, accRx me d i j obj dlc id = false := by
            intro i j; rw [← Bool.not_eq_true, acc]; exact fun h => h.2.2.2 h2
          simp [this]
        · rw [if_neg h2]
          obtain ⟨e, he⟩ := callMon_eq (me := me) hc data (d.m.monRx tp (syncObjOfId id)) dlc
          rw [he]
          dsimp only
          refine ⟨rfl, ?_, ?_⟩
          · intro i j
            by_cases hij : i = tp ∧ j = syncObjOfId id
            · rw [if_pos ((acc i j).2 ⟨hij.1, hij.2, h1, h2⟩)]
              obtain ⟨rfl, rfl⟩ := hij
              unfold incr
              rw [upd_same, upd_same]
            · rw [if_neg (fun h => hij ⟨((acc i j).1 h).1, ((acc i j).1 h).2.1⟩)]
              unfold incr
              by_cases hi : i = tp
              · subst hi
                rw [upd_same, upd_other _ _ (fun hj => hij ⟨rfl, hj⟩)]
              · rw [upd_other _ _ hi]
          · intro i j
            by_cases hij : i = tp ∧ j = syncObjOfId id
            · rw [if_pos ((acc i j).2 ⟨hij.1, hij.2, h1, h2⟩)]
              obtain ⟨rfl, rfl⟩ := hij
              rw [upd_same, upd_same]
            · rw [if_neg (fun h => hij ⟨((acc i j).1 h).1, ((acc i j).1 h).2.1⟩)]
              by_cases hi : i = tp
              · subst hi
                rw [upd_same, upd_other _ _ (fun hj => hij ⟨rfl, hj⟩)]
              · rw [upd_other _ _ hi]
  · rw [if_neg hb]
    have : ∀ i j, accRx me d i j obj dlc id = false := by intro i j; unfold accRx; simp [Decidable.not_not.1 hb]
    simp [this]

theorem monTxPart_vals {me : MonEnv} {d : Mon} (w : Wired me d.s.node.rows d.m) (now obj dlc id : Nat) (data : List Byte) :
    (monTxPart me d obj dlc id data).m.rxCnt = d.m.rxCnt ∧ (monTxPart me d obj dlc id data).m.monRx = d.m.monRx ∧
    (∀ i j, (monTxPart me d obj dlc id data).m.txCnt i j =
      if cTx me d i j (.mon now obj dlc id data) then u16 (d.m.txCnt i j + 1) else d.m.txCnt i j) := by
  unfold monTxPart
  have none' : (∀ i j, accTx me d i j obj dlc id = false) → ∀ i j, cTx me d i j (.mon now obj dlc id data) = false := by
    intro h i j; simp only [cTx, h, Bool.false_and]
  by_cases hb : Node.bit obj &&& d.m.maskMain ≠ 0
  · rw [if_pos hb]
    cases hs : slotOf d.m.txSlots obj with
    | none =>
      have := none' (by intro i j; unfold accTx; rw [hs]; simp)
      dsimp only
      simp [this]
    | some tp =>
      obtain ⟨o, ho⟩ := slot_mem hs
      have hreg := (w.tx _ ho).1
      have hc : (d.m.txMonSync tp (syncObjOfId id)) ≠ .null := (w.conv tp hreg _).2.1
      have acc : ∀ i j, accTx me d i j obj dlc id = true ↔ (i = tp ∧ j = syncObjOfId id ∧
          ¬ (me.chk ∧ txNrOfId id ≠ (d.s.node.rows tp).nr) ∧ ¬ (me.chk ∧ dlc ≠ (d.s.node.rows tp).txDlcSync (syncObjOfId id))) := by
        intro i j
        unfold accTx
        rw [hs]
        simp only [Bool.and_eq_true, decide_eq_true_eq, beq_iff_eq, Bool.or_eq_true, Bool.not_eq_true', Option.some.injEq]
        constructor
        · rintro ⟨⟨⟨-, h2⟩, h3⟩, h4⟩
          subst h2 h3
          refine ⟨rfl, rfl, ?_, ?_⟩
          · rintro ⟨a, b⟩; rcases h4 with h | h
            · rw [a] at h; cases h
            · exact b h.1
          · rintro ⟨a, b⟩; rcases h4 with h | h
            · rw [a] at h; cases h
            · exact b h.2
        · rintro ⟨rfl, rfl, h1, h2⟩
          refine ⟨⟨⟨hb, rfl⟩, rfl⟩, ?_⟩
          cases hk : me.chk with
          | false => exact .inl rfl
          | true =>
            right
            constructor
            · by_cases e : txNrOfId id = (d.s.node.rows i).nr
              · exact e
              · exact absurd ⟨hk, e⟩ h1
            · by_cases e : dlc = (d.s.node.rows i).txDlcSync (syncObjOfId id)
              · exact e
              · exact absurd ⟨hk, e⟩ h2
      dsimp only
      unfold txDataMon
      dsimp only
      by_cases h1 : me.chk ∧ txNrOfId id ≠ (d.s.node.rows tp).nr
      · rw [if_pos h1]
        have := none' (by intro i j; rw [← Bool.not_eq_true, acc]; exact fun h => h.2.2.1 h1)
        simp [this]
      · rw [if_neg h1]
        by_cases h2 : me.chk ∧ dlc ≠ (d.s.node.rows tp).txDlcSync (syncObjOfId id)
        · rw [if_pos h2]
          have := none' (by intro i j; rw [← Bool.not_eq_true, acc]; exact fun h => h.2.2.2 h2)
          simp [this]
        · rw [if_neg h2]
          obtain ⟨e, he⟩ := callMon_eq (me := me) hc data me.tmp dlc
          rw [he]
          dsimp only
          by_cases h3 : (d.m.mainTx tp (syncObjOfId id)).take dlc = (convM me (d.m.txMonSync tp (syncObjOfId id)) data me.tmp dlc).take dlc
          · rw [if_pos h3]
            refine ⟨rfl, rfl, ?_⟩
            intro i j
            dsimp only
            by_cases hij : i = tp ∧ j = syncObjOfId id
            · have : cTx me d i j (.mon now obj dlc id data) = true := by
                simp only [cTx, Bool.and_eq_true, beq_iff_eq]
                refine ⟨(acc i j).2 ⟨hij.1, hij.2, h1, h2⟩, ?_⟩
                rw [hij.1, hij.2]; exact h3
              rw [if_pos this]
              obtain ⟨rfl, rfl⟩ := hij
              unfold incr
              rw [upd_same, upd_same]
            · have : ¬ cTx me d i j (.mon now obj dlc id data) = true := by
                simp only [cTx, Bool.and_eq_true]
                exact fun h => hij ⟨((acc i j).1 h.1).1, ((acc i j).1 h.1).2.1⟩
              rw [if_neg this]
              unfold incr
              by_cases hi : i = tp
              · subst hi
                rw [upd_same, upd_other _ _ (fun hj => hij ⟨rfl, hj⟩)]
              · rw [upd_other _ _ hi]
          · rw [if_neg h3]
            refine ⟨rfl, rfl, ?_⟩
            intro i j
            have : ¬ cTx me d i j (.mon now obj dlc id data) = true := by
              simp only [cTx, Bool.and_eq_true, beq_iff_eq]
              intro h
              obtain ⟨e1, e2, -⟩ := (acc i j).1 h.1
              rw [e1, e2] at h
              exact h3 h.2
            rw [if_neg this]
  · rw [if_neg hb]
    have := none' (by intro i j; unfold accTx; simp [Decidable.not_not.1 hb])
    simp [this]

theorem Per.mon {me : MonEnv} {d : Mon} (w : Wired me d.s.node.rows d.m) (now obj dlc id : Nat) (data : List Byte) (h : obj ≠ 1) :
    Per me d (handlerMon me d now obj dlc id data) [.mon now obj dlc id data] := by
  rw [handlerMon_eq]
  dsimp only
  rw [if_neg h]
  have k1 := monRxPart_kept me d obj dlc id data
  obtain ⟨a1, a2, a3⟩ := monRxPart_vals w obj dlc id data
  generalize hd1 : monRxPart me d obj dlc id data = d1 at *
  have k2 := monTxPart_kept me d1 obj dlc id data
  have w1 : Wired me d1.s.node.rows d1.m := by
    rw [k1.s]
    exact w.same k1.wire (by rw [k1.rxMonSync, k1.txMonSync, k1.rxMon, k1.txMon]; exact w.conv)
  obtain ⟨b1, b2, b3⟩ := monTxPart_vals w1 now obj dlc id data
  have k := k1.trans k2
  generalize hd2 : monTxPart me d1 obj dlc id data = d2 at *
  have l1 : Light d.s.node d1.s.node := by rw [k1.s]; exact .refl _
  refine ⟨by rw [k.s]; exact .refl _, k.wire, k.rxMonSync, k.txMonSync, k.mainTx, by rw [k.s], k.prCnt, by rw [k.s], k.prDlc,
    by rw [k.s], ?_, ?_, ?_, ?_⟩
  · intro i j hlt
    rw [k.s]
    have : cMain me d i j (.mon now obj dlc id data) = false := rfl
    simp [this, Nat.mod_eq_of_lt hlt]
  · intro i j hlt
    rw [b1, a2]
    have : cRx me d i j (.mon now obj dlc id data) = accRx me d i j obj dlc id := rfl
    cases hc : accRx me d i j obj dlc id
    · simp [this, hc, Nat.mod_eq_of_lt hlt]
    · simp [this, hc, u16]
  · intro i j hlt
    rw [b3, cTx_congr l1 k1.wire k1.txMonSync k1.mainTx, a1]
    cases hc : cTx me d i j (.mon now obj dlc id data)
    · simp [hc, Nat.mod_eq_of_lt hlt]
    · simp [hc, u16]
  · intro i j
    rw [b2, a3]
    rfl

/-- a system message that is no table command -/
theorem sysMsg_quiet {me : MonEnv} {d d' : Mon} {nr dlc : Nat} {src : List Byte} {e : Err}
    (hc : ¬ tableCmd (at8 src 0)) (hs : Mon.sysMsg me d nr dlc src = some (d', e)) :
    Light d.s.node d'.s.node ∧ SameRate d.m d'.m ∧ ∃ c, d'.s.sync = { d.s.sync with cycle := c } := by
  have lift : ((Slave.sysMsg me.toEnv d.s nr dlc src).map fun r => (({ d with s := r.1 } : Mon), r.2)) = some (d', e) →
      Light d.s.node d'.s.node ∧ SameRate d.m d'.m ∧ ∃ c, d'.s.sync = { d.s.sync with cycle := c } := by
    intro hl
    obtain ⟨⟨s', e'⟩, h1, h2⟩ := Option.map_eq_some_iff.1 hl
    have hd : d' = { d with s := s' } := (congrArg Prod.fst h2).symm
    subst hd
    obtain ⟨h3, h4, -⟩ := sysMsg_keeps h1
    exact ⟨h4 hc, rfl, h3⟩
  unfold Mon.sysMsg at hs
  dsimp only at hs
  split at hs
  · exact lift hs
  split at hs
  · exact lift hs
  split at hs
  · exact lift hs
  split at hs
  · have := congrArg Prod.fst (Option.some.inj hs)
    dsimp only at this
    rw [← this]
    unfold Mon.changeBaud
    dsimp only
    rw [if_pos (show (Mon.setMode me d .stopped).2 = E.ok from rfl)]
    have s1 : ∀ (d : Mon) md, SameRate d.m (Mon.setMode me d md).1.m := fun d md => rfl
    have s2 := (s1 d .stopped).trans (setBaud_same (Mon.setMode me d .stopped).1 (at8 src 1 * 256 + at8 src 2))
    have n2 : (Mon.setBaud (Mon.setMode me d .stopped).1 (at8 src 1 * 256 + at8 src 2)).1.s.node = d.s.node := rfl
    have y2 : (Mon.setBaud (Mon.setMode me d .stopped).1 (at8 src 1 * 256 + at8 src 2)).1.s.sync = d.s.sync := rfl
    split
    · exact ⟨.refl _, s2.trans (s1 ..), _, rfl⟩
    · exact ⟨.refl _, s2, _, rfl⟩
  split at hs
  · next hx => exact absurd (hx.1.elim (fun a => .inr (.inl a)) (fun a => .inr (.inr (.inl a)))) hc
  split at hs
  · next hx => exact absurd (.inl hx.1) hc
  · exact lift hs

theorem Per.main {me : MonEnv} {d d' : Mon} {now obj dlc id : Nat} {data : List Byte}
    (hq : QuietM me (.main now obj dlc id data)) (hs : handlerMain me d now obj dlc id data = some d') :
    Per me d d' [.main now obj dlc id data] := by
  rw [handlerMain_eq] at hs
  dsimp only at hs
  rw [if_neg hq.1] at hs
  obtain ⟨dl, -, -, -, -, c, hc, hcc⟩ := dataPart_keeps me.toEnv d.s obj dlc id data
  have cnt : ∀ i j, d.s.sync.cnt i j < 65536 → c i j =
      (d.s.sync.cnt i j + if cMain me d i j (.main now obj dlc id data) then 1 else 0) % 65536 := by
    intro i j hlt
    rw [hcc]
    have : cMain me d i j (.main now obj dlc id data) = counts me.toEnv d.s.node i j obj dlc id := rfl
    rw [this]
    cases counts me.toEnv d.s.node i j obj dlc id
    · simp [Nat.mod_eq_of_lt hlt]
    · rfl
  split at hs
  · next ho =>
    simp only [Option.bind_some, Option.map_eq_some_iff] at hs
    obtain ⟨⟨r, e⟩, h3, h4⟩ := hs
    obtain ⟨l, sr, cy, hcy⟩ := sysMsg_quiet (hq.2 ho) h3
    rw [← h4]
    dsimp only at l sr hcy
    have hy : (reportD me r e).s.sync = r.s.sync := rfl
    refine Per.easy ((dl.trans l).trans (Light.report me.toEnv r.s.node e)) sr ?_ ?_ ?_ ?_ (by intro _ _ _ _ _ h; cases h)
    · rw [hy, hcy, hc]
    · rw [hy, hcy, hc]
    · rw [hy, hcy, hc]
    · intro i j hlt; rw [hy, hcy, hc]; exact cnt i j hlt
  · injection hs with hs
    rw [← hs]
    refine Per.easy dl rfl ?_ ?_ ?_ ?_ (by intro _ _ _ _ _ h; cases h)
    · dsimp only; rw [hc]
    · dsimp only; rw [hc]
    · dsimp only; rw [hc]
    · intro i j hlt; dsimp only; rw [hc]; exact cnt i j hlt

theorem Per.step {me : MonEnv} {d d' : Mon} {x : MIn} (w : Wired me d.s.node.rows d.m) (hq : QuietM me x)
    (hs : Mon.step me d x = some d') : Per me d d' [x] := by
  have lift : ∀ y : In, Slave.Quiet me.toEnv y → (∀ i j, countsIn me.toEnv d.s.node i j y = false) → Mon.lift me d y = some d' →
      (∀ i j, cMain me d i j x = false) → (∀ t o l id data, x ≠ .mon t o l id data) → Per me d d' [x] := by
    intro y hy hc hl h1 h2
    unfold Mon.lift at hl
    obtain ⟨s', e1, e2⟩ := Option.map_eq_some_iff.1 hl
    subst e2
    have q := quiet_step hy e1
    refine Per.easy q.light rfl q.pcnt q.dlc q.first ?_ h2
    intro i j hlt
    have := q.cnt i j hlt
    rw [hc] at this
    rw [h1]
    exact this
  cases x with
  | main now obj dlc id data => exact Per.main hq hs
  | mon now obj dlc id data =>
    have : d' = handlerMon me d now obj dlc id data := (Option.some.inj hs).symm
    rw [this]; exact Per.mon w _ _ _ _ _ hq
  | write p v =>
    have : d' = _ := (Option.some.inj hs).symm
    rw [this]
    exact Per.easy ⟨rfl, rfl, rfl, rfl, rfl, rfl, rfl, rfl⟩ rfl rfl rfl rfl
      (by intro i j hlt; simp [cMain, Nat.mod_eq_of_lt hlt]) (by intro _ _ _ _ _ h; cases h)
  | add => exact absurd hq id
  | silentAwakeBy => exact absurd hq id
  | setActive => exact absurd hq id
  | setCritical => exact absurd hq id
  | changeNr => exact absurd hq id
  | setMode md =>
    have : d' = _ := (Option.some.inj hs).symm
    rw [this]
    exact Per.easy (.refl _) rfl rfl rfl rfl
      (by intro i j hlt; show d.s.sync.cnt i j = _; simp [cMain, Nat.mod_eq_of_lt hlt]) (by intro _ _ _ _ _ h; cases h)
  | setBaud b =>
    have : d' = _ := (Option.some.inj hs).symm
    rw [this]
    exact Per.easy (.refl _) (setBaud_same d b) rfl rfl rfl
      (by intro i j hlt; show d.s.sync.cnt i j = _; simp [cMain, Nat.mod_eq_of_lt hlt]) (by intro _ _ _ _ _ h; cases h)
  | trigger now => exact lift (.trigger now) trivial (fun _ _ => rfl) hs (fun _ _ => rfl) (by intro _ _ _ _ _ h; cases h)
  | setCycle t => exact lift (.setCycle t) trivial (fun _ _ => rfl) hs (fun _ _ => rfl) (by intro _ _ _ _ _ h; cases h)
  | allCb f => exact lift (.allCb f) trivial (fun _ _ => rfl) hs (fun _ _ => rfl) (by intro _ _ _ _ _ h; cases h)
  | validCb typ nr f => exact lift (.validCb typ nr f) trivial (fun _ _ => rfl) hs (fun _ _ => rfl) (by intro _ _ _ _ _ h; cases h)
  | invalidCb typ nr f => exact lift (.invalidCb typ nr f) trivial (fun _ _ => rfl) hs (fun _ _ => rfl) (by intro _ _ _ _ _ h; cases h)
  | reqCb typ nr f => exact lift (.reqCb typ nr f) trivial (fun _ _ => rfl) hs (fun _ _ => rfl) (by intro _ _ _ _ _ h; cases h)

theorem Per.nil (me : MonEnv) (d : Mon) : Per me d d [] :=
  ⟨.refl _, .refl _, rfl, rfl, rfl, rfl, rfl, rfl, rfl, rfl,
    fun i j h => by simp [Nat.mod_eq_of_lt h], fun i j h => by simp [Nat.mod_eq_of_lt h], fun i j h => by simp [Nat.mod_eq_of_lt h],
    fun _ _ => rfl⟩

theorem quietM_run {me : MonEnv} (he : MonEnvOk me) (xs : List MIn) : ∀ {w : Bool × Bool} {d d' : Mon}, MReach me w d →
    (∀ x ∈ xs, QuietM me x) → Mon.run me d xs = some d' → Per me d d' xs ∧ MReach me w d' := by
  induction xs with
  | nil =>
    intro w d d' hr _ h
    injection h with h; rw [← h]
    exact ⟨.nil me d, hr⟩
  | cons x xs ih =>
    intro w d d' hr hq h
    simp only [Mon.run, Option.bind_eq_some_iff] at h
    obtain ⟨d1, h1, h2⟩ := h
    have qx := hq x (by simp)
    have a := Per.step (hr.inv he).wired qx h1
    have r1 := hr.step (qx.basic d) h1
    rw [qx.pair] at r1
    obtain ⟨b, r2⟩ := ih r1 (fun y hy => hq y (by simp [hy])) h2
    exact ⟨a.append b, r2⟩

end Mon
end LiCan
