import Verif.Lemmas.MonVerdict
/-! # The monitored process image: C75 -/
namespace LiCan
open Node Spec Slave
namespace Spec

/-- Is the input a frame received by the main controller with this identifier and (if lengths are checked)
this length? -/
def isMain (chk : Bool) (id dlc : Nat) : Mon.MIn → Bool
  | .main _ _ l x _ => x == id && (!chk || l == dlc)
  | _ => false

/-- Is the input a frame received by the monitor controller with this identifier and (if lengths are checked)
this length? -/
def isMon (chk : Bool) (id dlc : Nat) : Mon.MIn → Bool
  | .mon _ _ l x _ => x == id && (!chk || l == dlc)
  | _ => false

/-- The object a monitor conversion makes of the received bytes. -/
def monValue (me : MonEnv) (c : Conv) (can old : List Byte) (dlc : Nat) : List Byte :=
  match c with
  | .app k => (me.monConv k can dlc old).1
  | _ => old

/-- Does the frame, converted back, agree with what was to be sent? -/
def agrees (me : MonEnv) (c : Conv) (sent : List Byte) : Mon.MIn → Bool
  | .mon _ _ l _ data => (monValue me c data me.tmp l).take l == sent.take l
  | _ => false

/-- How often the main controller received the frame. -/
def mainArrivals (chk : Bool) (id dlc : Nat) (xs : List Mon.MIn) : Nat := (xs.filter (isMain chk id dlc)).length

/-- How often the monitor received the frame. -/
def monArrivals (chk : Bool) (id dlc : Nat) (xs : List Mon.MIn) : Nat := (xs.filter (isMon chk id dlc)).length

/-- How often the monitor saw the slave send the frame with the right contents. -/
def readBacks (me : MonEnv) (id dlc : Nat) (c : Conv) (sent : List Byte) (xs : List Mon.MIn) : Nat :=
  (xs.filter fun x => isMon me.chk id dlc x && agrees me c sent x).length

/-- The monitor's copy of a receive object after the frames. -/
def monObject (me : MonEnv) (id dlc : Nat) (c : Conv) (old : List Byte) : List Mon.MIn → List Byte
  | [] => old
  | x :: xs => match x with
    | .mon _ _ l _ data => monObject me id dlc c (if isMon me.chk id dlc x then monValue me c data old l else old) xs
    | _ => monObject me id dlc c old xs

/-- A received frame comes in through a message object of the receiving controller whose programmed filter
accepts its 11-bit identifier (behaviour of the CAN controllers, trusted). -/
def DeliveredM (me : MonEnv) (d : Mon) : Mon.MIn → Prop
  | .main _ obj _ id _ => obj < me.nObj ∧ id < 0x800 ∧ ∃ x, d.s.node.hw.defs obj = some x ∧
      hwAccepts (BitVec.ofNat 16 x.id) x.mask (BitVec.ofNat 16 id) = true
  | .mon _ obj _ id _ => obj < me.nMon ∧ id < 0x800 ∧ ∃ x, d.m.defs obj = some x ∧
      hwAccepts (BitVec.ofNat 16 x.id) x.mask (BitVec.ofNat 16 id) = true
  | _ => True

/-- The verdict on module `i`: every transmit object switched on was read back correctly exactly once, every
receive object switched on arrived exactly once at each controller, and the monitor's copy agrees with the
application's object.  (`backs j`: number of correct read-backs, `copy j`: the monitor's copy.) -/
def Verdict (me : MonEnv) (d : Mon) (xs : List Mon.MIn) (backs : Nat → Nat → Nat) (old : Nat → Nat → List Byte) (i : Nat) : Prop :=
  let r := d.s.node.rows i
  (∀ j < r.txObjSync, backs i j % 65536 = 1) ∧
  ∀ j < r.rxObjSync,
    mainArrivals me.chk (0x200 + 4 * (r.nr - 1) + j) (r.rxDlcSync j) xs % 65536 = 1 ∧
    monArrivals me.chk (0x200 + 4 * (r.nr - 1) + j) (r.rxDlcSync j) xs % 65536 = 1 ∧
    (monObject me (0x200 + 4 * (r.nr - 1) + j) (r.rxDlcSync j) (d.m.rxMonSync i j) (old i j) xs).take (r.rxDlcSync j) =
      (d.s.node.mem (r.rx j)).take (r.rxDlcSync j)

end Spec
namespace Mon

theorem convM_eq (me : MonEnv) (c : Conv) (can old : List Byte) (dlc : Nat) : convM me c can old dlc = monValue me c can old dlc := rfl

section
variable {me : MonEnv} (he : MonEnvOk me) {w : Bool × Bool} {d : Mon} (h : MInv me w d)
  (hn : ∀ i, (d.s.node.rows i).typ ≠ [] → (d.s.node.rows i).nr ≤ 128)
include he h

theorem cMain_eq {xs : List MIn} (hb : ∀ x ∈ xs, DeliveredM me d x) {i j : Nat} (hi : (d.s.node.rows i).typ ≠ [])
    (hj : j < (d.s.node.rows i).rxObj) : xs.countP (cMain me d i j) =
      mainArrivals me.chk (0x200 + 4 * ((d.s.node.rows i).nr - 1) + j) ((d.s.node.rows i).rxDlcSync j) xs := by
  rw [List.countP_eq_length_filter]
  unfold mainArrivals
  congr 1
  apply List.filter_congr
  intro x hx
  have hx' := hb x hx
  cases x <;> simp only [cMain, isMain]
  next now obj dlc id data =>
    obtain ⟨b1, b2, y, b3, b4⟩ := hx'
    have := h.table.counts_iff he.env h.defs i j obj dlc id y b1 b3 b2 b4 hi hj
    rw [Bool.eq_iff_iff, this]
    simp only [Bool.and_eq_true, beq_iff_eq, Bool.or_eq_true, Bool.not_eq_true']
    cases me.chk <;> simp

include hn

theorem acc_eq {x : MIn} (hx : DeliveredM me d x) {i j : Nat} (hi : (d.s.node.rows i).typ ≠ [])
    (hj : j < (d.s.node.rows i).rxObj) : cRx me d i j x =
      isMon me.chk (0x200 + 4 * ((d.s.node.rows i).nr - 1) + j) ((d.s.node.rows i).rxDlcSync j) x := by
  cases x <;> simp only [cRx, isMon]
  next now obj dlc id data =>
    have := accRx_iff he h hn hx i j dlc hi hj
    rw [Bool.eq_iff_iff, this]
    simp only [Bool.and_eq_true, beq_iff_eq, Bool.or_eq_true, Bool.not_eq_true']
    cases me.chk <;> simp

theorem cRx_eq {xs : List MIn} (hb : ∀ x ∈ xs, DeliveredM me d x) {i j : Nat} (hi : (d.s.node.rows i).typ ≠ [])
    (hj : j < (d.s.node.rows i).rxObj) : xs.countP (cRx me d i j) =
      monArrivals me.chk (0x200 + 4 * ((d.s.node.rows i).nr - 1) + j) ((d.s.node.rows i).rxDlcSync j) xs := by
  rw [List.countP_eq_length_filter]
  unfold monArrivals
  congr 1
  apply List.filter_congr
  intro x hx
  exact acc_eq he h hn (hb x hx) hi hj

theorem rxObj_eq {i j : Nat} (hi : (d.s.node.rows i).typ ≠ []) (hj : j < (d.s.node.rows i).rxObj) (xs : List MIn) :
    ∀ old, (∀ x ∈ xs, DeliveredM me d x) → xs.foldl (rxObj me d i j) old =
      monObject me (0x200 + 4 * ((d.s.node.rows i).nr - 1) + j) ((d.s.node.rows i).rxDlcSync j) (d.m.rxMonSync i j) old xs := by
  induction xs with
  | nil => intro old _; rfl
  | cons x xs ih =>
    intro old hb
    rw [List.foldl_cons, ih _ (fun y hy => hb y (by simp [hy]))]
    have hx := acc_eq he h hn (hb x (by simp)) hi hj
    cases x <;> simp only [rxObj, monObject]
    next now obj dlc id data =>
      have hc : cRx me d i j (.mon now obj dlc id data) = accRx me d i j obj dlc id := rfl
      rw [← hx, hc]
      rfl

theorem cTx_eq {xs : List MIn} (hb : ∀ x ∈ xs, DeliveredM me d x) {i j : Nat} (hi : (d.s.node.rows i).typ ≠ [])
    (hj : j < (d.s.node.rows i).txObj) : xs.countP (cTx me d i j) =
      readBacks me (0x400 + 4 * ((d.s.node.rows i).nr - 1) + j) ((d.s.node.rows i).txDlcSync j) (d.m.txMonSync i j) (d.m.mainTx i j) xs := by
  rw [List.countP_eq_length_filter]
  unfold readBacks
  congr 1
  apply List.filter_congr
  intro x hx
  have hx' := hb x hx
  cases x <;> simp only [cTx, isMon, agrees, Bool.false_and]
  next now obj dlc id data =>
    have := accTx_iff he h hn hx' i j dlc hi hj
    rw [Bool.eq_iff_iff]
    simp only [Bool.and_eq_true, beq_iff_eq, Bool.or_eq_true, Bool.not_eq_true', this, convM_eq]
    constructor
    · rintro ⟨⟨a, b⟩, c⟩
      refine ⟨⟨a, ?_⟩, c.symm⟩
      cases hk : me.chk
      · exact .inl rfl
      · exact .inr (b hk)
    · rintro ⟨⟨a, b⟩, c⟩
      refine ⟨⟨a, ?_⟩, c.symm⟩
      intro hk; rw [hk] at b; simpa using b

end

theorem MInv.objs {me : MonEnv} {w : Bool × Bool} {d : Mon} (h : MInv me w d) {i : Nat} (hi : i < d.s.node.nrMod) :
    i < me.maxMod ∧ (d.s.node.rows i).typ ≠ [] ∧ (d.s.node.rows i).rxObjSync ≤ (d.s.node.rows i).rxObj ∧
      (d.s.node.rows i).txObjSync ≤ (d.s.node.rows i).txObj := by
  have hmx := Nat.lt_of_lt_of_le hi h.table.nrMod
  obtain ⟨t, g, -⟩ := h.table
  have hr := (g.sim.registered i).2 (Nat.lt_of_lt_of_le hi g.nrMod)
  have hl := (g.sim.registered i).1 hr
  have r := g.sim.row i t.mods[i] (by simp [hl])
  refine ⟨hmx, hr, ?_, ?_⟩
  · rw [r.rxs trivial]; split <;> omega
  · rw [r.txs trivial, r.txObj]; split <;> omega

/-- The common part of both orders. -/
theorem verdict_core {me : MonEnv} (he : MonEnvOk me) {d d1 d2 d3 d4 : Mon} {e : MIn} {xs ys : List MIn} {wA wB : Bool × Bool}
    (i1 : MInv me wA d1) (i2 : MInv me wB d2) (i3 : MInv me (true, true) d3) (p1 : Per me d d1 xs) (k : ReqKept d1 d2) (p2 : Per me d2 d3 ys)
    (z : Zeroed me d) (hb : ∀ x ∈ xs ++ ys, DeliveredM me d3 x)
    (hn : ∀ i, (d3.s.node.rows i).typ ≠ [] → (d3.s.node.rows i).nr ≤ 128)
    (hr : isReq e = true) (hs : Mon.step me d3 e = some d4)
    (q1 : d3.s.sync.prDlc ≤ 1) (q2 : d3.m.prDlc ≤ 1) (q3 : d3.s.sync.prCnt = 1) (q4 : d3.m.prCnt = 1) (q5 : d3.s.sync.first = true) :
    (∀ i < d3.s.node.nrMod, d4.s.sync.valid i = true ↔ Verdict me d3 (xs ++ ys)
      (fun i j =>
        readBacks me (0x400 + 4 * ((d3.s.node.rows i).nr - 1) + j) ((d3.s.node.rows i).txDlcSync j) (d3.m.txMonSync i j) (d.m.mainTx i j) xs +
        readBacks me (0x400 + 4 * ((d3.s.node.rows i).nr - 1) + j) ((d3.s.node.rows i).txDlcSync j) (d3.m.txMonSync i j) (d2.m.mainTx i j) ys)
      d.m.monRx i) ∧
    (∃ fr, (∀ x ∈ fr, ∃ f ok, x = Ev.frame f ok) ∧ d4.s.node.log = fr ++
      (reqCalls d3 e ++
       callsOf ((List.range d3.s.node.nrMod).map fun i => if d4.s.sync.valid i then d3.s.sync.validCb i else d3.s.sync.invalidCb i) ++
       callsOf (if (List.range d3.s.node.nrMod).all d4.s.sync.valid then [d3.s.sync.allCb] else [])).reverse ++ d3.s.node.log) := by
  obtain ⟨v1, v2⟩ := verdict he i3 hr hs q1 q2 q3 q4 q5
  refine ⟨?_, v2⟩
  have l13 : Light d1.s.node d3.s.node := k.light.trans p2.light
  have l03 : Light d.s.node d3.s.node := p1.light.trans l13
  have w13 : SameWire d1.m d3.m := k.wire.trans p2.wire
  have hbx : ∀ x ∈ xs, DeliveredM me d3 x := fun x hx => hb x (by simp [hx])
  have hby : ∀ x ∈ ys, DeliveredM me d3 x := fun x hx => hb x (by simp [hx])
  intro i hi
  obtain ⟨o1, o2, o3, o4⟩ := i3.objs hi
  rw [v1 i hi, okM_iff]
  unfold Verdict
  dsimp only
  have hrow : d.s.node.rows = d3.s.node.rows := l03.rows.symm
  refine and_congr (forall_congr' fun j => imp_congr_right fun hj => ?_) (forall_congr' fun j => imp_congr_right fun hj => ?_)
  · have zz := z.txCnt i o1 j (by rw [hrow]; exact hj)
    have e1 := p1.txCnt i j (by rw [zz]; decide)
    have e2 := p2.txCnt i j (by rw [k.txCnt, e1]; omega)
    rw [e2, k.txCnt, e1, zz]
    have c1 : cTx me d i j = cTx me { d3 with m := { d3.m with mainTx := d.m.mainTx } } i j :=
      (cTx_congr (d' := { d3 with m := { d3.m with mainTx := d.m.mainTx } }) l03 ⟨by rw [w13.used, p1.wire.used], by rw [w13.defs, p1.wire.defs], by rw [w13.mrx, p1.wire.mrx],
        by rw [w13.mtx, p1.wire.mtx], by rw [w13.rx, p1.wire.rx], by rw [w13.tx, p1.wire.tx]⟩
        (show d3.m.txMonSync = _ by rw [p2.c2, k.c2, p1.c2]) rfl i j).symm
    have c2 : cTx me d2 i j = cTx me { d3 with m := { d3.m with mainTx := d2.m.mainTx } } i j :=
      (cTx_congr (d' := { d3 with m := { d3.m with mainTx := d2.m.mainTx } }) p2.light ⟨p2.wire.used, p2.wire.defs, p2.wire.mrx, p2.wire.mtx, p2.wire.rx, p2.wire.tx⟩ p2.c2 rfl i j).symm
    have inv : ∀ f, MInv me (true, true) { d3 with m := { d3.m with mainTx := f } } := fun f =>
      i3.easy (.refl _) ⟨rfl, rfl, rfl, rfl, rfl, rfl⟩ rfl rfl rfl rfl rfl rfl rfl rfl
    have g1 := cTx_eq he (inv d.m.mainTx) hn (xs := xs) (by intro x hx; have := hbx x hx; cases x <;> exact this) o2 (Nat.lt_of_lt_of_le hj o4)
    have g2 := cTx_eq he (inv d2.m.mainTx) hn (xs := ys) (by intro x hx; have := hby x hx; cases x <;> exact this) o2 (Nat.lt_of_lt_of_le hj o4)
    rw [c1, c2, g1, g2]
    dsimp only
    omega
  · have z1 := z.cnt i o1 j (by rw [hrow]; exact hj)
    have z2 := z.rxCnt i o1 j (by rw [hrow]; exact hj)
    have hj' := Nat.lt_of_lt_of_le hj o3
    have a1 := p1.cnt i j (by rw [z1]; decide)
    have a2 := p2.cnt i j (by rw [k.cnt, a1]; omega)
    have b1 := p1.rxCnt i j (by rw [z2]; decide)
    have b2 := p2.rxCnt i j (by rw [k.rxCnt, b1]; omega)
    have lw : SameWire d.m d3.m := p1.wire.trans w13
    have m1 : d3.m.monRx i j = (xs ++ ys).foldl (rxObj me d3 i j) (d.m.monRx i j) := by
      have r1 := rxObj_congr (me := me) l03 lw (by rw [p2.c1, k.c1, p1.c1]) i j
      have r2 := rxObj_congr (me := me) p2.light p2.wire p2.c1 i j
      rw [p2.monRx, k.monRx, p1.monRx, List.foldl_append, ← r2, ← r1]
    rw [a2, k.cnt, a1, z1, b2, k.rxCnt, b1, z2, m1, ← cMain_congr l03, ← cMain_congr p2.light, ← cRx_congr l03 lw, ← cRx_congr p2.light p2.wire,
      ← cMain_eq he i3 hb o2 hj', ← cRx_eq he i3 hn hb o2 hj', rxObj_eq he i3 hn o2 hj' _ _ hb, List.countP_append, List.countP_append]
    constructor
    · rintro ⟨a, b, c⟩; exact ⟨by omega, by omega, c⟩
    · rintro ⟨a, b, c⟩; exact ⟨by omega, by omega, c⟩

/-- C75.  One period of a slave with monitor controller in which the request reaches the main controller
first: the request on the main controller (after a completed period), frames on both controllers and API
calls that leave the module table alone, the request on the monitor, more of the same, then the next
request on either controller.  This request
* makes module `i` valid iff every transmit object it has switched on was read back by the monitor exactly
  once with the contents the application object had at the request, and every receive object it has
  switched on arrived exactly once at each controller (modulo 65536) with monitor and application agreeing
  on its value;
* calls the request callbacks (if it came to the main controller), the valid or not-valid callback of every
  module and, iff all modules are valid, the all-valid callback, in this order; everything after that is
  transmission.
`_partial`: requests longer than one byte, numbers above 128, modules switched in between and registrations
that could not be completed are excluded; see the counterexamples. -/
theorem C75_main_first_partial (me : MonEnv) (he : MonEnvOk me) (d0 dA dB dC dD d' : Mon) (h0 : MReach me (true, true) d0)
    (t1 t2 l1 l2 id1 id2 : Nat) (b1 b2 : List Byte) (xs ys : List MIn) (e : MIn)
    (hA : step me d0 (.main t1 0 l1 id1 b1) = some dA) (hl1 : l1 ≤ 1)
    (hxs : run me dA xs = some dB) (hqx : ∀ x ∈ xs, QuietM me x)
    (hB : step me dB (.mon t2 1 l2 id2 b2) = some dC) (hl2 : l2 ≤ 1)
    (hys : run me dC ys = some dD) (hqy : ∀ x ∈ ys, QuietM me x)
    (hr : isReq e = true) (hE : step me dD e = some d')
    (hbus : ∀ x ∈ xs ++ ys, DeliveredM me dD x)
    (hn : ∀ i, (dD.s.node.rows i).typ ≠ [] → (dD.s.node.rows i).nr ≤ 128) :
    (∀ i < dD.s.node.nrMod, d'.s.sync.valid i = true ↔ Verdict me dD (xs ++ ys)
      (fun i j => readBacks me (0x400 + 4 * ((dD.s.node.rows i).nr - 1) + j) ((dD.s.node.rows i).txDlcSync j) (dD.m.txMonSync i j)
        ((d0.s.node.mem ((dD.s.node.rows i).tx j)).take 8) (xs ++ ys))
      d0.m.monRx i) ∧
    (∃ fr, (∀ x ∈ fr, ∃ f ok, x = Ev.frame f ok) ∧ d'.s.node.log = fr ++
      (reqCalls dD e ++
       callsOf ((List.range dD.s.node.nrMod).map fun i => if d'.s.sync.valid i then dD.s.sync.validCb i else dD.s.sync.invalidCb i) ++
       callsOf (if (List.range dD.s.node.nrMod).all d'.s.sync.valid then [dD.s.sync.allCb] else [])).reverse ++ dD.s.node.log) := by
  have i0 := h0.inv he
  have bA : BasicM me d0 (.main t1 0 l1 id1 b1) := by intro h; omega
  have bB : BasicM me dB (.mon t2 1 l2 id2 b2) := trivial
  have rA : MReach me (true, false) dA := h0.step bA hA
  obtain ⟨pX, rB⟩ := quietM_run he xs rA hqx hxs
  have rC : MReach me (true, true) dC := rB.step bB hB
  obtain ⟨pY, rD⟩ := quietM_run he ys rC hqy hys
  obtain ⟨zA, lA, a1, a2, a3, a4, a5, a6, a7, a8, a9⟩ := first_main i0 (main_req he i0 hA)
  have iB := rB.inv he
  have eC := mon_req he iB hB
  obtain ⟨kC, c1, c2, c3, c4⟩ := second_mon iB t2 l2
  rw [← eC] at kC c1 c2 c3 c4
  have iD := rD.inv he
  have core := verdict_core he iB (rC.inv he) iD pX kC pY zA hbus hn hr hE
    (by rw [pY.pdlc, c1, pX.pdlc, a3]; exact hl1) (by rw [pY.mpdlc, c4]; exact hl2)
    (by rw [pY.pcnt, c1, pX.pcnt, a1]) (by rw [pY.mpcnt, c3]) (by rw [pY.first, c1, pX.first, a4])
  refine ⟨?_, core.2⟩
  intro i hi
  rw [core.1 i hi]
  obtain ⟨o1, o2, o3, o4⟩ := iD.objs hi
  have l0D : Light d0.s.node dD.s.node := lA.trans (pX.light.trans (kC.light.trans pY.light))
  have hrow : d0.s.node.rows = dD.s.node.rows := l0D.rows.symm
  unfold Verdict
  dsimp only
  rw [a5]
  refine and_congr_left' ?_
  refine forall_congr' fun j => imp_congr_right fun hj => ?_
  have s1 := a9 i (by rw [hrow]; exact o2) j (by rw [hrow]; exact hj)
  rw [hrow] at s1
  rw [c2, pX.mainTx, s1]
  unfold readBacks
  rw [List.filter_append, List.length_append]

/-- C75, the other order: the request reaches the monitor first.  What was sent at the previous request is
compared with what the monitor reads back before the main controller receives the request, the new contents
with what it reads back afterwards. -/
theorem C75_monitor_first_partial (me : MonEnv) (he : MonEnvOk me) (d0 dA dB dC dD d' : Mon) (h0 : MReach me (true, true) d0)
    (t1 t2 l1 l2 id1 id2 : Nat) (b1 b2 : List Byte) (xs ys : List MIn) (e : MIn)
    (hA : step me d0 (.mon t1 1 l1 id1 b1) = some dA) (hl1 : l1 ≤ 1)
    (hxs : run me dA xs = some dB) (hqx : ∀ x ∈ xs, QuietM me x)
    (hB : step me dB (.main t2 0 l2 id2 b2) = some dC) (hl2 : l2 ≤ 1)
    (hys : run me dC ys = some dD) (hqy : ∀ x ∈ ys, QuietM me x)
    (hr : isReq e = true) (hE : step me dD e = some d')
    (hbus : ∀ x ∈ xs ++ ys, DeliveredM me dD x)
    (hn : ∀ i, (dD.s.node.rows i).typ ≠ [] → (dD.s.node.rows i).nr ≤ 128) :
    (∀ i < dD.s.node.nrMod, d'.s.sync.valid i = true ↔ Verdict me dD (xs ++ ys)
      (fun i j =>
        readBacks me (0x400 + 4 * ((dD.s.node.rows i).nr - 1) + j) ((dD.s.node.rows i).txDlcSync j) (dD.m.txMonSync i j)
          (d0.m.mainTx i j) xs +
        readBacks me (0x400 + 4 * ((dD.s.node.rows i).nr - 1) + j) ((dD.s.node.rows i).txDlcSync j) (dD.m.txMonSync i j)
          ((dB.s.node.mem ((dD.s.node.rows i).tx j)).take 8) ys)
      d0.m.monRx i) ∧
    (∃ fr, (∀ x ∈ fr, ∃ f ok, x = Ev.frame f ok) ∧ d'.s.node.log = fr ++
      (reqCalls dD e ++
       callsOf ((List.range dD.s.node.nrMod).map fun i => if d'.s.sync.valid i then dD.s.sync.validCb i else dD.s.sync.invalidCb i) ++
       callsOf (if (List.range dD.s.node.nrMod).all d'.s.sync.valid then [dD.s.sync.allCb] else [])).reverse ++ dD.s.node.log) := by
  have i0 := h0.inv he
  have bA : BasicM me d0 (.mon t1 1 l1 id1 b1) := trivial
  have bB : BasicM me dB (.main t2 0 l2 id2 b2) := by intro h; omega
  have rA : MReach me (false, true) dA := h0.step bA hA
  obtain ⟨pX, rB⟩ := quietM_run he xs rA hqx hxs
  have rC : MReach me (true, true) dC := rB.step bB hB
  obtain ⟨pY, rD⟩ := quietM_run he ys rC hqy hys
  have eA := mon_req he i0 hA
  have fA := first_mon i0 t1 l1
  rw [← eA] at fA
  obtain ⟨zA, lA, a1, a2, a3, a5, a6, a7, a8, a9⟩ := fA
  have iB := rB.inv he
  obtain ⟨kC, c1, c2, c3, c4, c5, c6⟩ := second_main iB (main_req he iB hB)
  have iD := rD.inv he
  have core := verdict_core he iB (rC.inv he) iD pX kC pY zA hbus hn hr hE
    (by rw [pY.pdlc, c2]; exact hl2) (by rw [pY.mpdlc, c5, pX.mpdlc, a3]; exact hl1)
    (by rw [pY.pcnt, c1]) (by rw [pY.mpcnt, c4, pX.mpcnt, a2]) (by rw [pY.first, c3])
  refine ⟨?_, core.2⟩
  intro i hi
  rw [core.1 i hi]
  obtain ⟨o1, o2, o3, o4⟩ := iD.objs hi
  have lBD : Light dB.s.node dD.s.node := kC.light.trans pY.light
  have hrow : dB.s.node.rows = dD.s.node.rows := lBD.rows.symm
  unfold Verdict
  dsimp only
  rw [a5]
  refine and_congr_left' ?_
  refine forall_congr' fun j => imp_congr_right fun hj => ?_
  have s1 := c6 i (by rw [hrow]; exact o2) j (by rw [hrow]; exact hj)
  rw [hrow] at s1
  rw [s1, a6]

end Mon
end LiCan
