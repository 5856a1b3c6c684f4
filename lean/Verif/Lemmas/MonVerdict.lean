import Verif.Lemmas.MonPeriod
import Verif.Props.Sync
/-! # The monitored process image: requests and verdicts -/
namespace LiCan
open Node Spec Slave
namespace Mon

/-! ## Frames of the monitor controller -/

theorem slotOf_iff {l : List (Nat × Nat)} (nd : (l.map (·.1)).Nodup) {n : Nat} (hn : n ≤ 32) (hl : ∀ s ∈ l, s.1 < n)
    (obj i : Nat) (ho : obj < n) : slotOf l obj = some i ↔ (obj, i) ∈ l := by
  have bits : ∀ o < n, (Node.bit obj &&& Node.bit o ≠ 0 ↔ o = obj) := by
    intro o ho'
    rw [bit_and_iff _ _ (by omega), bit_get _ _ (by omega)]
    simp only [decide_eq_true_eq]
    exact eq_comm
  unfold slotOf
  induction l with
  | nil => simp
  | cons s l ih =>
    rw [List.map_cons, List.nodup_cons] at nd
    have hs := bits s.1 (hl s (by simp))
    rw [List.find?_cons]
    by_cases e : s.1 = obj
    · have : decide (Node.bit obj &&& Node.bit s.1 ≠ 0) = true := decide_eq_true (hs.2 e)
      rw [this]
      simp only [Option.map_some, Option.some.injEq, List.mem_cons]
      constructor
      · intro h; left; rw [← h, ← e]
      · rintro (h | h)
        · rw [← h]
        · exact absurd (List.mem_map.2 ⟨_, h, by dsimp only; exact e.symm⟩) nd.1
    · have : decide (Node.bit obj &&& Node.bit s.1 ≠ 0) = false := decide_eq_false (fun h => e (hs.1 h))
      rw [this]
      dsimp only
      refine (ih nd.2 (fun s hs => hl s (by simp [hs]))).trans ?_
      simp only [List.mem_cons]
      constructor
      · exact .inr
      · rintro (h | h)
        · rw [← h] at e; exact absurd rfl e
        · exact h

/-- the identifier a full filter accepts -/
theorem accepts_full {a id : Nat} (ha : a < 0x800) (hid : id < 0x800)
    (h : hwAccepts (BitVec.ofNat 16 a) 0x7FF#16 (BitVec.ofNat 16 id) = true) : id = a := by
  simp only [hwAccepts, beq_iff_eq] at h
  have key : ∀ x : Nat, x < 0x800 → (BitVec.ofNat 16 x &&& 0x7FF#16) = BitVec.ofNat 16 x := by
    intro x hx
    apply BitVec.eq_of_toNat_eq
    simp only [BitVec.toNat_and, BitVec.toNat_ofNat]
    rw [show (2047 % 2 ^ 16) = 2 ^ 11 - 1 from rfl, Nat.and_two_pow_sub_one_eq_mod]
    omega
  rw [key _ hid, key _ ha] at h
  have := congrArg BitVec.toNat h
  simp only [BitVec.toNat_ofNat] at this
  omega

theorem txNrOfId_eq (id : Nat) (h1 : 0x400 ≤ id) (h2 : id < 0x800) : txNrOfId id = (id - 0x400) / 4 + 1 := by
  unfold txNrOfId u16; omega

/-- A frame received by the monitor comes in through a message object whose programmed filter accepts its
11-bit identifier. -/
def AcceptM (me : MonEnv) (m : MonVars) (obj id : Nat) : Prop :=
  obj < me.nMon ∧ id < 0x800 ∧ ∃ x, m.defs obj = some x ∧
    hwAccepts (BitVec.ofNat 16 x.id) x.mask (BitVec.ofNat 16 id) = true

theorem txObj_le {env : Env} {n : Node} (h : TableInv env n) {i : Nat} (hi : (n.rows i).typ ≠ []) : (n.rows i).txObj ≤ 4 := by
  obtain ⟨t, g, hn⟩ := h
  have hl := (g.sim.registered i).1 hi
  have r := g.sim.row i t.mods[i] (by simp [hl])
  rw [r.txObj]; exact r.tx4

section frames
set_option linter.unusedSectionVars false
variable {me : MonEnv} (he : MonEnvOk me) {w : Bool × Bool} {d : Mon} (h : MInv me w d)
  (hn : ∀ i, (d.s.node.rows i).typ ≠ [] → (d.s.node.rows i).nr ≤ 128)
include he h

/-- what the identifier says about the message object -/
theorem rx_slot_id {obj i id : Nat} (ha : AcceptM me d.m obj id) (hs : (obj, i) ∈ d.m.rxSlots) :
    (d.s.node.rows i).typ ≠ [] ∧ ∃ j < (d.s.node.rows i).rxObj, id = 0x200 + 4 * ((d.s.node.rows i).nr - 1) + j := by
  obtain ⟨h1, h2, x, h3, h4⟩ := ha
  obtain ⟨hr, j, hj, e⟩ := h.wired.rx _ hs
  dsimp only at hr hj e
  rw [e] at h3
  injection h3 with h3; subst h3
  obtain ⟨q1, q2, q3⟩ := h.table.registered he.env hr
  have m8 := he.env.m8
  refine ⟨hr, j, hj, ?_⟩
  unfold rxD syncRxId at h4
  dsimp only at h4
  rw [idOf_eq _ _ _ (by omega) (by omega)] at h4
  have := accepts_full (by omega) h2 h4
  omega

theorem tx_slot_id {obj i id : Nat} (ha : AcceptM me d.m obj id) (hs : (obj, i) ∈ d.m.txSlots) :
    (d.s.node.rows i).typ ≠ [] ∧ ∃ j < (d.s.node.rows i).txObj, id = 0x400 + 4 * ((d.s.node.rows i).nr - 1) + j := by
  obtain ⟨h1, h2, x, h3, h4⟩ := ha
  obtain ⟨hr, j, hj, e⟩ := h.wired.tx _ hs
  dsimp only at hr hj e
  rw [e] at h3
  injection h3 with h3; subst h3
  obtain ⟨q1, q2, q3⟩ := h.table.registered he.env hr
  have m8 := he.env.m8
  have t4 := txObj_le h.table hr
  refine ⟨hr, j, hj, ?_⟩
  unfold txD syncTxId at h4
  dsimp only at h4
  rw [idOf_eq _ _ _ (by omega) (by omega)] at h4
  have := accepts_full (by omega) h2 h4
  omega

theorem slot_cases {obj id : Nat} (ha : AcceptM me d.m obj id) :
    id = 1 ∨ id = 2 ∨ (∃ i, (obj, i) ∈ d.m.rxSlots) ∨ (∃ i, (obj, i) ∈ d.m.txSlots) := by
  obtain ⟨h1, h2, x, h3, h4⟩ := ha
  rcases h.wired.all obj h1 x h3 with e | e | e
  · subst e; rw [h.wired.d1] at h3; injection h3 with h3; subst h3
    exact .inl (accepts_full (by decide) h2 h4)
  · subst e; rw [h.wired.d4] at h3; injection h3 with h3; subst h3
    exact .inr (.inl (accepts_full (by decide) h2 h4))
  · obtain ⟨⟨o, i⟩, hm, e⟩ := List.mem_map.1 e
    dsimp only at e; subst e
    rcases List.mem_append.1 hm with hm | hm
    · exact .inr (.inr (.inl ⟨i, hm⟩))
    · exact .inr (.inr (.inr ⟨i, hm⟩))

theorem rx_slotOf (obj i : Nat) (ho : obj < me.nMon) : slotOf d.m.rxSlots obj = some i ↔ (obj, i) ∈ d.m.rxSlots := by
  have nd := h.wired.nd
  rw [List.map_append, List.nodup_append] at nd
  exact slotOf_iff nd.1 he.o32 (fun s hs => (h.wired.lt s (List.mem_append.2 (.inl hs))).1) obj i ho

theorem tx_slotOf (obj i : Nat) (ho : obj < me.nMon) : slotOf d.m.txSlots obj = some i ↔ (obj, i) ∈ d.m.txSlots := by
  have nd := h.wired.nd
  rw [List.map_append, List.nodup_append] at nd
  exact slotOf_iff nd.2.1 he.o32 (fun s hs => (h.wired.lt s (List.mem_append.2 (.inr hs))).1) obj i ho

include hn

theorem accRx_iff {obj id : Nat} (ha : AcceptM me d.m obj id) (i j dlc : Nat) (hi : (d.s.node.rows i).typ ≠ [])
    (hj : j < (d.s.node.rows i).rxObj) : accRx me d i j obj dlc id = true ↔
      id = 0x200 + 4 * ((d.s.node.rows i).nr - 1) + j ∧ (me.chk = true → dlc = (d.s.node.rows i).rxDlcSync j) := by
  obtain ⟨q1, q2, q3⟩ := h.table.registered he.env hi
  have m8 := he.env.m8
  have o32 := he.o32
  have ni := hn i hi
  constructor
  · intro hc
    simp only [accRx, Bool.and_eq_true, decide_eq_true_eq, beq_iff_eq, Bool.or_eq_true, Bool.not_eq_true'] at hc
    obtain ⟨⟨⟨_, hs⟩, ho'⟩, hk⟩ := hc
    obtain ⟨-, j', hj', e⟩ := rx_slot_id he h ha ((rx_slotOf he h obj i ha.1).1 hs)
    have : j' = j := by rw [← ho']; unfold syncObjOfId; omega
    subst this
    refine ⟨e, fun hck => ?_⟩
    rw [hck] at hk
    simpa using (hk.resolve_left (by simp)).2
  · rintro ⟨e, hk⟩
    have hs : (obj, i) ∈ d.m.rxSlots := by
      rcases slot_cases he h ha with e' | e' | ⟨i', hs⟩ | ⟨i', hs⟩
      · omega
      · omega
      · obtain ⟨hr, j', hj', e'⟩ := rx_slot_id he h ha hs
        obtain ⟨p1, p2, p3⟩ := h.table.registered he.env hr
        have := h.table.distinct hr hi (by omega)
        rw [← this]; exact hs
      · obtain ⟨hr, j', hj', e'⟩ := tx_slot_id he h ha hs
        have := hn i' hr
        omega
    have hsn : syncNrOfId id = (d.s.node.rows i).nr := by
      rw [syncNrOfId_eq _ (by omega) ha.2.1]; omega
    have hso : syncObjOfId id = j := by unfold syncObjOfId; omega
    have hbit := (h.wired.mrx obj (by have := ha.1; omega)).2 (List.mem_map.2 ⟨_, hs, rfl⟩)
    simp only [accRx, Bool.and_eq_true, decide_eq_true_eq, beq_iff_eq, Bool.or_eq_true, Bool.not_eq_true']
    refine ⟨⟨⟨(bit_and_iff _ _ (by have := ha.1; omega)).2 hbit, (rx_slotOf he h obj i ha.1).2 hs⟩, hso⟩, ?_⟩
    cases hck : me.chk with
    | false => exact .inl rfl
    | true => exact .inr ⟨hsn, hk hck⟩

theorem accTx_iff {obj id : Nat} (ha : AcceptM me d.m obj id) (i j dlc : Nat) (hi : (d.s.node.rows i).typ ≠ [])
    (hj : j < (d.s.node.rows i).txObj) : accTx me d i j obj dlc id = true ↔
      id = 0x400 + 4 * ((d.s.node.rows i).nr - 1) + j ∧ (me.chk = true → dlc = (d.s.node.rows i).txDlcSync j) := by
  obtain ⟨q1, q2, q3⟩ := h.table.registered he.env hi
  have t4 := txObj_le h.table hi
  have m8 := he.env.m8
  have o32 := he.o32
  have ni := hn i hi
  constructor
  · intro hc
    simp only [accTx, Bool.and_eq_true, decide_eq_true_eq, beq_iff_eq, Bool.or_eq_true, Bool.not_eq_true'] at hc
    obtain ⟨⟨⟨_, hs⟩, ho'⟩, hk⟩ := hc
    obtain ⟨-, j', hj', e⟩ := tx_slot_id he h ha ((tx_slotOf he h obj i ha.1).1 hs)
    have : j' = j := by rw [← ho']; unfold syncObjOfId; omega
    subst this
    refine ⟨e, fun hck => ?_⟩
    rw [hck] at hk
    simpa using (hk.resolve_left (by simp)).2
  · rintro ⟨e, hk⟩
    have hs : (obj, i) ∈ d.m.txSlots := by
      rcases slot_cases he h ha with e' | e' | ⟨i', hs⟩ | ⟨i', hs⟩
      · omega
      · omega
      · obtain ⟨hr, j', hj', e'⟩ := rx_slot_id he h ha hs
        obtain ⟨p1, p2, p3⟩ := h.table.registered he.env hr
        have := hn i' hr
        omega
      · obtain ⟨hr, j', hj', e'⟩ := tx_slot_id he h ha hs
        obtain ⟨p1, p2, p3⟩ := h.table.registered he.env hr
        have t4' := txObj_le h.table hr
        have := h.table.distinct hr hi (by omega)
        rw [← this]; exact hs
    have hsn : txNrOfId id = (d.s.node.rows i).nr := by
      rw [txNrOfId_eq _ (by omega) ha.2.1]; omega
    have hso : syncObjOfId id = j := by unfold syncObjOfId; omega
    have hbit := (h.wired.mtx obj (by have := ha.1; omega)).2 (List.mem_map.2 ⟨_, hs, rfl⟩)
    simp only [accTx, Bool.and_eq_true, decide_eq_true_eq, beq_iff_eq, Bool.or_eq_true, Bool.not_eq_true']
    refine ⟨⟨⟨(bit_and_iff _ _ (by have := ha.1; omega)).2 hbit, (tx_slotOf he h obj i ha.1).2 hs⟩, hso⟩, ?_⟩
    cases hck : me.chk with
    | false => exact .inl rfl
    | true => exact .inr ⟨hsn, hk hck⟩

end frames

/-! ## Requests -/

/-- a request on the monitor -/
theorem mon_req {me : MonEnv} (he : MonEnvOk me) {w : Bool × Bool} {d d' : Mon} (h : MInv me w d) {t l id : Nat} {data : List Byte}
    (hs : Mon.step me d (.mon t 1 l id data) = some d') : d' = rxProcessMon (checkImage me d t) t l := by
  have e : d' = handlerMon me d t 1 l id data := (Option.some.inj hs).symm
  have big := he.big
  have no : ∀ s ∈ d.m.rxSlots ++ d.m.txSlots, s.1 ≠ 1 := fun s hs => (h.wired.lt s hs).2.2.1
  have hr : monRxPart me d 1 l id data = d := by
    unfold monRxPart
    rw [if_neg]
    intro hb
    have := (h.wired.mrx 1 (by decide)).1 ((bit_and_iff _ 1 (by decide)).1 hb)
    obtain ⟨s, hs, e⟩ := List.mem_map.1 this
    exact no s (List.mem_append.2 (.inl hs)) e
  have ht : monTxPart me d 1 l id data = d := by
    unfold monTxPart
    rw [if_neg]
    intro hb
    have := (h.wired.mtx 1 (by decide)).1 ((bit_and_iff _ 1 (by decide)).1 hb)
    obtain ⟨s, hs, e⟩ := List.mem_map.1 this
    exact no s (List.mem_append.2 (.inr hs)) e
  rw [e, handlerMon_eq]
  dsimp only
  rw [hr, ht, if_pos rfl]

/-- a request on the main controller -/
theorem main_req {me : MonEnv} (he : MonEnvOk me) {w : Bool × Bool} {d d' : Mon} (h : MInv me w d) {t l id : Nat} {data : List Byte}
    (hs : Mon.step me d (.main t 0 l id data) = some d') : processRequest me d t l = some d' := by
  have hs' : handlerMain me d t 0 l id data = some d' := hs
  rw [handlerMain_eq] at hs'
  dsimp only at hs'
  rw [request_data_id he.env h.table, if_pos rfl, if_neg (by omega)] at hs'
  exact hs'

/-- what a request that does not evaluate leaves alone -/
structure ReqKept (d d' : Mon) : Prop where
  light : Light d.s.node d'.s.node
  wire  : SameWire d.m d'.m
  c1    : d'.m.rxMonSync = d.m.rxMonSync
  c2    : d'.m.txMonSync = d.m.txMonSync
  cnt   : d'.s.sync.cnt = d.s.sync.cnt
  rxCnt : d'.m.rxCnt = d.m.rxCnt
  txCnt : d'.m.txCnt = d.m.txCnt
  monRx : d'.m.monRx = d.m.monRx

/-- the counters in use are zero -/
structure Zeroed (me : MonEnv) (d : Mon) : Prop where
  cnt : ∀ i < me.maxMod, ∀ j < (d.s.node.rows i).rxObjSync, d.s.sync.cnt i j = 0
  rxCnt : ∀ i < me.maxMod, ∀ j < (d.s.node.rows i).rxObjSync, d.m.rxCnt i j = 0
  txCnt : ∀ i < me.maxMod, ∀ j < (d.s.node.rows i).txObjSync, d.m.txCnt i j = 0

/-- the captured transmit data -/
theorem capture_on {env : Env} {n : Node} (h : TableInv env n) (old : Nat → Nat → List Byte) {i j : Nat}
    (hi : (n.rows i).typ ≠ []) (hj : j < (n.rows i).txObjSync) : capture n n.tx.reg old i j = (n.mem ((n.rows i).tx j)).take 8 := by
  obtain ⟨t, g, hn⟩ := h
  have hl := (g.sim.registered i).1 hi
  have hm : t.mods[i]? = some t.mods[i] := by simp [hl]
  have r := g.sim.row i _ hm
  rw [r.txs trivial] at hj
  have hon : t.mods[i].on = true := by
    cases ho : t.mods[i].on with
    | true => rfl
    | false => rw [ho] at hj; simp at hj
  rw [hon, if_pos rfl] at hj
  have h4 := r.tx4
  unfold capture
  rw [if_pos]
  refine ⟨by omega, (g.sim.bits _).2 ⟨t.mods[i], ?_, hon, ?_⟩⟩
  · unfold pos; rw [show (4 * i + j) / 4 = i by omega]; exact hm
  · unfold pos; omega

theorem capture_congr {n n' : Node} (l : Light n n') (hm : n'.mem = n.mem) (old : Nat → Nat → List Byte) :
    capture n' n'.tx.reg old = capture n n.tx.reg old := by
  unfold capture; rw [l.rows, l.tx, hm]

/-- the first request of a period, on the main controller -/
theorem first_main {me : MonEnv} {d d' : Mon} (h : MInv me (true, true) d) {t l : Nat}
    (hs : processRequest me d t l = some d') : Zeroed me d' ∧ Light d.s.node d'.s.node ∧ d'.s.sync.prCnt = 1 ∧ d'.m.prCnt = 0 ∧
      d'.s.sync.prDlc = l ∧ d'.s.sync.first = true ∧ d'.m.monRx = d.m.monRx ∧ SameWire d.m d'.m ∧ d'.m.rxMonSync = d.m.rxMonSync ∧
      d'.m.txMonSync = d.m.txMonSync ∧
      (∀ i, (d.s.node.rows i).typ ≠ [] → ∀ j < (d.s.node.rows i).txObjSync,
        d'.m.mainTx i j = (d.s.node.mem ((d.s.node.rows i).tx j)).take 8) := by
  obtain ⟨lt, -, -, hsy, hm, -⟩ := request_spec hs
  have kp := checkImage_kept me { d with s := reqRx d.s } t
  have l0 := reqRx_light d.s
  have mem0 : (reqRx d.s).node.mem = d.s.node.mem := by rw [reqRx_eq]
  have cl := checkImage_clears me { d with s := reqRx d.s } t
    (by show (reqRx d.s).sync.prFlag = _; rw [reqRx_eq]; exact h.flag) h.mflag
  have fst : ({ d with s := reqRx d.s } : Mon).s.sync.first = true := by show (reqRx d.s).sync.first = _; rw [reqRx_eq]
  generalize checkImage me { d with s := reqRx d.s } t = k at *
  dsimp only at cl
  obtain ⟨-, -, p1, p2, p3, p4, p5⟩ := cl
  have lk : Light d.s.node k.s.node := l0.trans kp.light
  have hrow : d'.s.node.rows = (reqRx d.s).node.rows := (kp.light.trans lt).rows
  refine ⟨⟨?_, ?_, ?_⟩, lk.trans lt, ?_, ?_, ?_, ?_, ?_, ?_, ?_, ?_, ?_⟩
  · intro i hi j hj
    rw [hsy]; dsimp only; rw [p3]
    unfold cleared
    rw [if_pos ⟨hi, by rw [hrow] at hj; exact hj⟩]
  · intro i hi j hj
    rw [hm]; dsimp only; rw [p4]
    unfold clearedRx
    rw [if_pos ⟨hi, by rw [hrow] at hj; exact hj⟩]
  · intro i hi j hj
    rw [hm]; dsimp only; rw [p5]
    unfold clearedTx
    rw [if_pos ⟨hi, by rw [hrow] at hj; exact hj⟩]
  · rw [hsy]; dsimp only; rw [p1]
  · rw [hm]; exact p2
  · rw [hsy]
  · rw [hsy]; exact kp.first.trans fst
  · rw [hm]; exact kp.monRx
  · rw [hm]
    have sw := kp.wire
    exact ⟨sw.1, sw.2, sw.3, sw.4, sw.5, sw.6⟩
  · rw [hm]; exact kp.rxMonSync
  · rw [hm]; exact kp.txMonSync
  · intro i hi j hj
    rw [hm]
    dsimp only
    have tk : TableInv me.toEnv k.s.node := h.table.light lk
    rw [capture_on tk _ (by rw [lk.rows]; exact hi) (by rw [lk.rows]; exact hj), lk.rows, kp.mem]
    show List.take 8 ((reqRx d.s).node.mem _) = _
    rw [mem0]

/-- the first request of a period, on the monitor -/
theorem first_mon {me : MonEnv} {d : Mon} (h : MInv me (true, true) d) (t l : Nat) :
    let d' := rxProcessMon (checkImage me d t) t l
    Zeroed me d' ∧ Light d.s.node d'.s.node ∧ d'.s.sync.prCnt = 0 ∧ d'.m.prCnt = 1 ∧
      d'.m.prDlc = l ∧ d'.m.monRx = d.m.monRx ∧ d'.m.mainTx = d.m.mainTx ∧ SameWire d.m d'.m ∧ d'.m.rxMonSync = d.m.rxMonSync ∧
      d'.m.txMonSync = d.m.txMonSync := by
  intro d'
  have kp := checkImage_kept me d t
  have cl := checkImage_clears me d t h.flag h.mflag
  have hd : d' = rxProcessMon (checkImage me d t) t l := rfl
  clear_value d'
  generalize checkImage me d t = k at *
  subst hd
  dsimp only at cl
  obtain ⟨-, -, p1, p2, p3, p4, p5⟩ := cl
  have lk := kp.light
  have hrow : (rxProcessMon k t l).s.node.rows = d.s.node.rows := lk.rows
  refine ⟨⟨?_, ?_, ?_⟩, lk, p1, ?_, rfl, kp.monRx, kp.mainTx, ?_, kp.rxMonSync, kp.txMonSync⟩
  · intro i hi j hj
    show k.s.sync.cnt i j = 0
    rw [p3]; unfold cleared
    rw [if_pos ⟨hi, by rw [hrow] at hj; exact hj⟩]
  · intro i hi j hj
    show k.m.rxCnt i j = 0
    rw [p4]; unfold clearedRx
    rw [if_pos ⟨hi, by rw [hrow] at hj; exact hj⟩]
  · intro i hi j hj
    show k.m.txCnt i j = 0
    rw [p5]; unfold clearedTx
    rw [if_pos ⟨hi, by rw [hrow] at hj; exact hj⟩]
  · show u16 (k.m.prCnt + 1) = 1
    rw [p2]
  · have sw := kp.wire
    exact ⟨sw.1, sw.2, sw.3, sw.4, sw.5, sw.6⟩

/-- the second request of a period, on the monitor -/
theorem second_mon {me : MonEnv} {d : Mon} (h : MInv me (true, false) d) (t l : Nat) :
    let d' := rxProcessMon (checkImage me d t) t l
    ReqKept d d' ∧ d'.s.sync = d.s.sync ∧ d'.m.mainTx = d.m.mainTx ∧ d'.m.prCnt = 1 ∧ d'.m.prDlc = l := by
  have : checkImage me d t = d := checkImage_idle me d t (.inr h.mflag)
  rw [this]
  refine ⟨⟨.refl _, ⟨rfl, rfl, rfl, rfl, rfl, rfl⟩, rfl, rfl, rfl, rfl, rfl, rfl⟩, rfl, rfl, ?_, rfl⟩
  show u16 (d.m.prCnt + 1) = 1
  rw [h.mpcnt rfl]

/-- the second request of a period, on the main controller -/
theorem second_main {me : MonEnv} {d d' : Mon} (h : MInv me (false, true) d) {t l : Nat}
    (hs : processRequest me d t l = some d') :
    ReqKept d d' ∧ d'.s.sync.prCnt = 1 ∧ d'.s.sync.prDlc = l ∧ d'.s.sync.first = true ∧ d'.m.prCnt = d.m.prCnt ∧ d'.m.prDlc = d.m.prDlc ∧
      (∀ i, (d.s.node.rows i).typ ≠ [] → ∀ j < (d.s.node.rows i).txObjSync,
        d'.m.mainTx i j = (d.s.node.mem ((d.s.node.rows i).tx j)).take 8) := by
  obtain ⟨lt, -, -, hsy, hm, -⟩ := request_spec hs
  have l0 := reqRx_light d.s
  have mem0 : (reqRx d.s).node.mem = d.s.node.mem := by rw [reqRx_eq]
  have s0 : (reqRx d.s).sync = { d.s.sync with first := true } := by rw [reqRx_eq]
  have id0 : checkImage me { d with s := reqRx d.s } t = { d with s := reqRx d.s } :=
    checkImage_idle me _ t (.inl (by show (reqRx d.s).sync.prFlag = 0; rw [s0]; exact h.flag))
  rw [id0] at lt hsy hm
  dsimp only at lt hsy hm
  rw [s0] at hsy
  have lk : Light d.s.node (reqRx d.s).node := l0
  refine ⟨⟨lk.trans lt, ?_, ?_, ?_, ?_, ?_, ?_, ?_⟩, ?_, ?_, ?_, ?_, ?_, ?_⟩
  · rw [hm]; exact ⟨rfl, rfl, rfl, rfl, rfl, rfl⟩
  · rw [hm]
  · rw [hm]
  · rw [hsy]
  · rw [hm]
  · rw [hm]
  · rw [hm]
  · rw [hsy]; dsimp only; rw [h.pcnt rfl]
  · rw [hsy]
  · rw [hsy]
  · rw [hm]
  · rw [hm]
  · intro i hi j hj
    rw [hm]
    dsimp only
    have tk : TableInv me.toEnv (reqRx d.s).node := h.table.light lk
    rw [capture_on tk _ (by rw [lk.rows]; exact hi) (by rw [lk.rows]; exact hj), lk.rows, mem0]

/-! ## The verdict -/

/-- a process request on either controller -/
def isReq : MIn → Bool
  | .main _ obj _ _ _ => obj == 0
  | .mon _ obj _ _ _ => obj == 1
  | _ => false

/-- the request callbacks of a request on the main controller -/
def reqCalls (d : Mon) : MIn → List Ev
  | .main .. => callsOf ((List.range d.s.node.nrMod).map d.s.sync.reqCb)
  | _ => []

theorem okM_congr {d d' : Mon} (h1 : d'.s.node.rows = d.s.node.rows) (h2 : d'.s.node.mem = d.s.node.mem)
    (h3 : d'.s.sync.cnt = d.s.sync.cnt) (h4 : d'.m = d.m) (i : Nat) : okM d' i = okM d i := by
  unfold okM rxFault
  rw [h1, h2, h3, h4]

theorem modEvs_calls {d : Mon} {v : Nat → Bool} (okv : ∀ i < d.s.node.nrMod, v i = okM d i) :
    imageEvsM d = callsOf ((List.range d.s.node.nrMod).map fun i => if v i then d.s.sync.validCb i else d.s.sync.invalidCb i) ++
       callsOf (if (List.range d.s.node.nrMod).all v then [d.s.sync.allCb] else []) := by
  have e2 : (List.range d.s.node.nrMod).flatMap (modEvsM d) =
      callsOf ((List.range d.s.node.nrMod).map fun i => if v i then d.s.sync.validCb i else d.s.sync.invalidCb i) := by
    rw [← flatMap_calls, List.flatMap_def, List.flatMap_def]
    congr 1
    apply List.map_congr_left
    intro i hi
    simp only [modEvsM, okv i (List.mem_range.1 hi)]
  have e3 : (if allOkM d then calls d.s.sync.allCb else []) =
      callsOf (if (List.range d.s.node.nrMod).all v then [d.s.sync.allCb] else []) := by
    have : (List.range d.s.node.nrMod).all v = allOkM d := by
      unfold allOkM
      rw [Bool.eq_iff_iff]
      simp only [List.all_eq_true, List.mem_range]
      constructor
      · intro h i hi; rw [← okv i hi]; exact h i hi
      · intro h i hi; rw [okv i hi]; exact h i hi
    rw [this]
    cases allOkM d <;> simp [callsOf, calls]
    cases d.s.sync.allCb <;> rfl
  unfold imageEvsM
  rw [e2, e3]

theorem verdict {me : MonEnv} (he : MonEnvOk me) {d d' : Mon} (h : MInv me (true, true) d) {e : MIn} (hr : isReq e = true)
    (hs : Mon.step me d e = some d') (h2 : d.s.sync.prDlc ≤ 1) (h2' : d.m.prDlc ≤ 1) (h3 : d.s.sync.prCnt = 1) (h3' : d.m.prCnt = 1)
    (hf : d.s.sync.first = true) :
    (∀ i < d.s.node.nrMod, d'.s.sync.valid i = okM d i) ∧
    (∃ fr, (∀ x ∈ fr, ∃ f ok, x = Ev.frame f ok) ∧ d'.s.node.log = fr ++
      (reqCalls d e ++
       callsOf ((List.range d.s.node.nrMod).map fun i => if d'.s.sync.valid i then d.s.sync.validCb i else d.s.sync.invalidCb i) ++
       callsOf (if (List.range d.s.node.nrMod).all d'.s.sync.valid then [d.s.sync.allCb] else [])).reverse ++ d.s.node.log) := by
  cases e with
  | main t obj l id data =>
    have ho : obj = 0 := by simpa [isReq] using hr
    subst ho
    have hp := main_req he h hs
    obtain ⟨-, -, -, hsy, -, fr, hfr, hof⟩ := request_spec hp
    have rq : reqRx d.s = { d.s with node := { d.s.node with log := (reqEvs d.s).reverse ++ d.s.node.log } } := by
      rw [reqRx_eq]
      have : { d.s.sync with first := true } = d.s.sync := by rw [← hf]
      rw [this]
    obtain ⟨v, mt, er, a, b, c, tv, ev, hv, -, -⟩ := checkImage_eval me { d with s := reqRx d.s } t
      (by show (reqRx d.s).sync.prFlag = _; rw [rq]; exact h.flag) h.mflag (by show (reqRx d.s).sync.prDlc ≤ 1; rw [rq]; exact h2) h2'
      (by show (reqRx d.s).sync.prCnt = 1; rw [rq]; exact h3) h3'
    rw [ev] at hsy hfr
    have okc : ∀ i, okM { d with s := reqRx d.s } i = okM d i := by
      intro i
      apply okM_congr <;> first | rfl | (show _ = _; simp only [rq])
    have valid' : ∀ i < d.s.node.nrMod, d'.s.sync.valid i = okM d i := by
      intro i hi
      rw [hsy]; dsimp only
      rw [hv i, if_pos (by show i < (reqRx d.s).node.nrMod; rw [rq]; exact hi)]
      exact okc i
    refine ⟨valid', fr, hof, ?_⟩
    rw [hfr]
    dsimp only
    have ie : imageEvsM { d with s := reqRx d.s } = imageEvsM d := by
      unfold imageEvsM allOkM modEvsM
      have : okM { d with s := reqRx d.s } = okM d := funext okc
      rw [this]
      dsimp only
      rw [rq]
    rw [ie, modEvs_calls valid', rq]
    have e1 : reqEvs d.s = callsOf ((List.range d.s.node.nrMod).map d.s.sync.reqCb) := by
      unfold reqEvs
      rw [hf]
      simp only [if_true, List.nil_append]
      exact flatMap_calls _ _
    rw [e1]
    unfold reqCalls
    simp only [List.reverse_append, List.append_assoc]
  | mon t obj l id data =>
    have ho : obj = 1 := by simpa [isReq] using hr
    subst ho
    have hp := mon_req he h hs
    obtain ⟨v, mt, er, a, b, c, tv, ev, hv, -, -⟩ := checkImage_eval me d t h.flag h.mflag h2 h2' h3 h3'
    rw [ev] at hp
    have valid' : ∀ i < d.s.node.nrMod, d'.s.sync.valid i = okM d i := by
      intro i hi
      rw [hp]; show v i = _
      rw [hv i, if_pos hi]
    refine ⟨valid', [], by simp, ?_⟩
    rw [hp]
    show (imageEvsM d).reverse ++ d.s.node.log = _
    rw [← hp, modEvs_calls valid']
    simp [reqCalls]
  | _ => simp [isReq] at hr

end Mon
end LiCan
