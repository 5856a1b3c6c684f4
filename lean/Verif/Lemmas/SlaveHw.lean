import Verif.Lemmas.SlaveGood
import Verif.Props.NodeTable
/-! # What the message objects let through: only synchronous receive objects see identifiers 0x200..0x5FF -/
namespace LiCan
open Node Spec
namespace Slave

/-- the message object compares bits 9 and 10 of the identifier, and its own are equal: it lets
nothing from 0x200..0x5FF through -/
structure NoSync (d : ObjDef) : Prop where
  m9 : d.mask.getLsbD 9 = true
  m10 : d.mask.getLsbD 10 = true
  eq : d.id.testBit 9 = d.id.testBit 10

theorem NoSync.reject {d : ObjDef} (h : NoSync d) {id : Nat} (h1 : 0x200 ≤ id) (h2 : id < 0x600) :
    hwAccepts (BitVec.ofNat 16 d.id) d.mask (BitVec.ofNat 16 id) = false := by
  cases hx : hwAccepts (BitVec.ofNat 16 d.id) d.mask (BitVec.ofNat 16 id) with
  | false => rfl
  | true =>
    exfalso
    simp only [hwAccepts, beq_iff_eq] at hx
    have a := congrArg (fun x => x.getLsbD 9) hx
    have b := congrArg (fun x => x.getLsbD 10) hx
    simp only [BitVec.getLsbD_and, h.m9, h.m10, Bool.and_true, BitVec.getLsbD_ofNat] at a b
    simp only [show (9 : Nat) < 16 from by decide, show (10 : Nat) < 16 from by decide, decide_true, Bool.true_and] at a b
    have : id.testBit 9 = id.testBit 10 := by rw [a, b, h.eq]
    simp only [Nat.testBit_eq_decide_div_mod_eq, decide_eq_decide] at this
    omega

/-- every programmed message object is a synchronous receive object known to the handler, or
lets no identifier from 0x200..0x5FF through -/
structure DefInv (env : Env) (h : Hw) : Prop where
  all : ∀ o < env.nObj, ∀ d, h.defs o = some d →
    (d.svc = .rx true → h.isrRx.getLsbD o = true) ∧ (d.svc ≠ .rx true → NoSync d)

theorem DefInv.define {env : Env} (h32 : env.nObj ≤ 32) {n : Node} (h : DefInv env n.hw) (o : Nat) (d : ObjDef)
    (hd : d.svc ≠ .rx true → NoSync d) : DefInv env (Node.define env n o d).1.hw := by
  by_cases ho : o < env.nObj
  · rcases define_cases env n o d ho with ⟨_, e⟩ | ⟨_, e⟩ <;> rw [e]
    · refine ⟨fun x hx d' hd' => ?_⟩
      by_cases hxo : x = o
      · subst hxo
        simp only [upd_same, Option.some.injEq] at hd'
        subst hd'
        refine ⟨fun hs => ?_, hd⟩
        simp only [hs, if_true, BitVec.getLsbD_or, bit_get _ _ (show x < 32 by omega), decide_true, Bool.or_true]
      · simp only [upd_other _ _ hxo] at hd'
        refine ⟨fun hs => ?_, (h.all x hx d' hd').2⟩
        have := (h.all x hx d' hd').1 hs
        simp only
        split
        · simp [this]
        · exact this
    · exact ⟨h.all⟩
  · unfold Node.define
    rw [if_pos (by omega)]
    exact h

theorem acceptMask_no (nrs : List Nat) (id : Nat) (hid : id.testBit 9 = id.testBit 10) (dlc : Nat) (svc : Svc) :
    NoSync ⟨id, acceptMask nrs, dlc, svc⟩ := by
  refine ⟨?_, ?_, hid⟩ <;> simp [acceptMask]

theorem mask7FF : (0x7FF#16).getLsbD 9 = true ∧ (0x7FF#16).getLsbD 10 = true := by decide

theorem ctrl_no (nr : Nat) (h1 : 1 ≤ nr) (h2 : nr ≤ 132) (dlc : Nat) (svc : Svc) :
    NoSync ⟨asyncCtrlRxId nr, 0x7FF#16, dlc, svc⟩ := by
  refine ⟨mask7FF.1, mask7FF.2, ?_⟩
  simp only [asyncCtrlRxId, idOf_eq _ _ _ h1 (show 0x600 + 4 * nr + 0 < 65536 by omega)]
  simp only [Nat.testBit_eq_decide_div_mod_eq, decide_eq_decide]
  omega

theorem DefInv.thenOk {env : Env} {r : Node × Err} {f : Node → Node × Err} (h : DefInv env r.1.hw)
    (hf : ∀ n, DefInv env n.hw → DefInv env (f n).1.hw) : DefInv env (Node.thenOk r f).1.hw := by
  unfold Node.thenOk; split
  · exact hf _ h
  · exact h

theorem DefInv.forErr {env : Env} {f : Nat → Node → Node × Err}
    (hf : ∀ i n, DefInv env n.hw → DefInv env (f i n).1.hw) (is : List Nat) :
    ∀ n : Node, DefInv env n.hw → DefInv env (Node.forErr f is n).1.hw := by
  induction is with
  | nil => intro n h; exact h
  | cons i is ih => intro n h; exact (hf i n h).thenOk ih

theorem DefInv.setRx {env : Env} (h32 : env.nObj ≤ 32) {n : Node} (h : DefInv env n.hw) (tp nr : Nat) :
    DefInv env (Node.setRx env n tp nr).1.hw := by
  unfold Node.setRx
  simp only
  refine DefInv.forErr ?_ _ _ h
  intro i n h
  unfold Node.setRx1
  simp only
  split
  · exact h
  · next o _ =>
    refine DefInv.thenOk (DefInv.define h32 (by exact h) o _ (fun hne => absurd rfl hne)) ?_
    intro n h
    unfold addSlot; split <;> exact h

theorem txCnfg_hw (env : Env) (n : Node) (tp obj nr : Nat) : (txCnfg env n tp obj nr).1.hw = n.hw := by
  unfold txCnfg; split
  · rfl
  · split <;> rfl

theorem DefInv.setTx {env : Env} {n : Node} (h : DefInv env n.hw) (tp nr : Nat) :
    DefInv env (Node.setTx env n tp nr).1.hw := by
  unfold Node.setTx
  refine DefInv.forErr ?_ _ _ h
  intro i n h
  rw [txCnfg_hw]; exact h

theorem DefInv.finish {env : Env} (h32 : env.nObj ≤ 32) {n : Node} (h : DefInv env n.hw) (tp idx nr : Nat)
    (nrs : List Nat) (h1 : 1 ≤ nr) (h2 : nr ≤ 132) : DefInv env (Node.finish env n tp idx nr nrs).1.hw := by
  unfold Node.finish
  simp only
  refine DefInv.thenOk (DefInv.thenOk (DefInv.thenOk (DefInv.thenOk ?_ ?_) ?_) ?_) ?_
  · unfold defineCtrl
    split
    · exact h
    · split
      · exact h
      · exact DefInv.define h32 (by exact h) _ _ (fun _ => ctrl_no nr h1 h2 _ _)
  · intro n h
    exact h.define h32 _ _ (fun _ => acceptMask_no _ _ (by decide) _ _)
  · intro n h
    exact h.define h32 _ _ (fun _ => acceptMask_no _ _ (by decide) _ _)
  · intro n h
    split
    · exact h.define h32 _ _ (fun _ => acceptMask_no _ _ (by decide) _ _)
    · exact h
  · intro n h
    rw [(setSilentAwake_sameHw env n tp _).hw]; exact h

theorem effNr_bounds {tp nr : Nat} (h : tp < 8) : 1 ≤ effNr tp nr ∧ effNr tp nr ≤ 132 := by
  unfold effNr u16; split <;> omega

theorem DefInv.setModule {env : Env} (h32 : env.nObj ≤ 32) {n : Node} (h : DefInv env n.hw) (tp : Nat)
    (htp : tp < 8) (tpl : Row) (nr : Nat) (rx tx : Nat → Nat) :
    DefInv env (Node.setModule env n tp tpl nr rx tx).1.hw := by
  unfold Node.setModule
  simp only
  refine DefInv.thenOk (DefInv.setTx (by exact h) _ _) ?_
  intro n h
  refine DefInv.thenOk (h.setRx h32 _ _) ?_
  intro n h
  have := h.finish h32 tp n.nrMod (effNr tp nr) ((List.range (tp + 1)).map fun i => (n.rows i).nr)
    (effNr_bounds htp).1 (effNr_bounds htp).2
  generalize Node.finish env n tp n.nrMod (effNr tp nr) ((List.range (tp + 1)).map fun i => (n.rows i).nr) = r at *
  exact this

theorem DefInv.add {env : Env} (he : EnvOk env) {n : Node} (h : DefInv env n.hw) (tpl : Row) (nr : Nat)
    (rx tx : Nat → Nat) : DefInv env (Node.addModule env n tpl nr rx tx).1.hw := by
  unfold Node.addModule
  split
  · exact h
  · next i hi =>
    have : i < 8 := by
      have h8 := he.m8
      simp only [List.find?_range_eq_some] at hi
      have := hi.2.1
      simp at this
      omega
    split
    · simp only
      rw [(report_sameHw ..).hw]
      exact h.setModule he.o32 i this ..
    · simp only
      rw [(report_sameHw ..).hw]
      exact h.setModule he.o32 i this ..

theorem DefInv.step {env : Env} (he : EnvOk env) {n : Node} (h : DefInv env n.hw) {o : Op} (hb : Basic o) :
    DefInv env (Node.step env n o).1.hw := by
  cases o with
  | add tpl nr rx tx => exact h.add he ..
  | silentAwake tp st => show DefInv env (setSilentAwake env n tp st).1.hw; rw [(setSilentAwake_sameHw ..).hw]; exact h
  | silentAwakeBy typ nr st =>
    show DefInv env (setSilentAwakeBy env n typ nr st).1.hw
    unfold setSilentAwakeBy
    split
    · rw [(setSilentAwake_sameHw ..).hw]; exact h
    · exact h
  | setActive typ =>
    show DefInv env (Node.setActive env n typ).1.hw
    unfold Node.setActive
    split
    · simp only; rw [(syncOn_sameHw ..).hw]; exact h
    · exact h
  | setCritical typ =>
    show DefInv env (Node.setCritical env n typ).1.hw
    unfold Node.setCritical
    split
    · simp only; rw [(syncOff_sameHw ..).hw]; exact h
    · exact h
  | process =>
    show DefInv env ((sendProcessData env n).getD n).hw
    rw [(process_sameHw env n).hw]; exact h
  | changeNr => exact absurd hb id
  | changeModuleNr => exact absurd hb id
  | changeTypeAdd => exact absurd hb id
  | changeType => exact absurd hb id

theorem DefInv.init {env : Env} (h32 : env.nObj ≤ 32) (n : Node) : DefInv env (Node.init env n).1.hw := by
  unfold Node.init
  simp only
  have hno : ∀ (id dlc : Nat) (svc : Svc), id.testBit 9 = id.testBit 10 → NoSync ⟨id, 0x7FF#16, dlc, svc⟩ :=
    fun _ _ _ h => ⟨mask7FF.1, mask7FF.2, h⟩
  refine DefInv.thenOk (DefInv.thenOk (DefInv.thenOk (DefInv.thenOk (DefInv.define h32 ?_ _ _ ?_) ?_) ?_) ?_) ?_
  · refine ⟨fun o ho d hd => ?_⟩
    simp only [ho, if_true] at hd
    cases hd
  · intro _; exact hno _ _ _ (by decide)
  · intro n h; exact h.define h32 _ _ fun _ => hno _ _ _ (by decide)
  · intro n h
    split
    · exact h.define h32 _ _ fun _ => hno _ _ _ (by decide)
    · exact h
  · intro n h; exact h.define h32 _ _ fun _ => hno _ _ _ (by decide)
  · intro n h; exact h.define h32 _ _ fun _ => hno _ _ _ (by decide)

/-- along slave histories -/
theorem DefInv.sysMsg {env : Env} {s s' : Slave} {nr dlc : Nat} {src : List Byte} {e : Err}
    (hi : DefInv env s.node.hw) (hc : at8 src 0 ≠ 0x20 ∧ at8 src 0 ≠ 0x31)
    (h : Slave.sysMsg env s nr dlc src = some (s', e)) : DefInv env s'.node.hw := by
  by_cases ht : tableCmd (at8 src 0)
  · have hsa : ∀ st, DefInv env (sysSilentAwake env s src nr st).1.node.hw := by
      intro st
      unfold sysSilentAwake
      split
      · split
        · next tp _ =>
          split
          · simp only; rw [(setSilentAwake_sameHw ..).hw]; exact hi
          · exact hi
        · exact hi
      · exact hi
    have key : ∀ (st : Nat), (if nr = 1 then some (s, E.notAllowedBroadcast) else some (sysSilentAwake env s src nr st)) = some (s', e) →
        DefInv env s'.node.hw := by
      intro st hs
      split at hs
      · have := congrArg Prod.fst (Option.some.inj hs); simp only at this; rw [← this]; exact hi
      · have := congrArg Prod.fst (Option.some.inj hs); simp only at this; rw [← this]; exact hsa st
    have triv : ∀ {y : Err}, some (s, y) = some (s', e) → DefInv env s'.node.hw := by
      intro y h
      have := congrArg Prod.fst (Option.some.inj h); simp only at this; rw [← this]; exact hi
    unfold Slave.sysMsg at h
    split at h
    · exact triv h
    simp only at h
    generalize (if nr = 1 then none else findNr env s.node nr) = dst at h
    split at h
    · exact triv h
    split at h
    · exact triv h
    rcases ht with ht | ht | ht | ht
    · exact absurd ht hc.1
    · rw [ht] at h; exact key 0 h
    · rw [ht] at h; exact key 1 h
    · exact absurd ht hc.2
  · rw [((sysMsg_keeps h).2.1 ht).hw]; exact hi

theorem DefInv.slaveStep {env : Env} (he : EnvOk env) {s s' : Slave} {i : In} (hq : ReqInv s)
    (hi : DefInv env s.node.hw) (hb : BasicIn env i) (h : Slave.step env s i = some s') : DefInv env s'.node.hw := by
  cases i with
  | frame now obj dlc id data =>
    have h' : handlerRx env s now obj dlc id data = some s' := h
    rw [handlerRx_eq] at h'
    have d := dataPart_keeps env s obj dlc id data
    have hd : ReqInv (dataPart env s obj dlc id data) := by
      obtain ⟨-, -, -, -, -, c, hc, -⟩ := d
      exact hq.congr (by rw [hc]) (by rw [hc]) (by rw [hc])
    have h1 : DefInv env (dataPart env s obj dlc id data).node.hw := by rw [d.1.hw]; exact hi
    generalize dataPart env s obj dlc id data = s1 at *
    have hr : ∀ s2, reqPart env s1 now obj dlc = some s2 → DefInv env s2.node.hw := by
      intro s2 h2
      unfold reqPart at h2
      split at h2
      · rw [(hd.request h2).2.2.2.hw]; exact h1
      · injection h2 with h2; rw [← h2]; exact h1
    split at h'
    · next ho =>
      simp only [Option.bind_eq_some_iff] at h'
      obtain ⟨s2, h2, h3⟩ := h'
      simp only [sysPart, Option.map_eq_some_iff] at h3
      obtain ⟨⟨r, e⟩, h4, h5⟩ := h3
      subst h5
      have := (hr s2 h2).sysMsg (hb ho) h4
      simp only
      rw [(Light.report env r.node e).hw]
      exact this
    · exact hr s' h'
  | trigger now =>
    injection h with h; subst h
    obtain ⟨p, hp⟩ := trigger_eq env s now
    rw [hp]; exact hi
  | getPeriode => injection h with h; subst h; exact hi
  | setCycle t =>
    injection h with h; subst h
    unfold setCycle; split <;> exact hi
  | validCb typ nr f =>
    injection h with h; subst h
    rcases setModCb_keeps env s typ nr (fun v tp => { v with validCb := upd v.validCb tp f }) with e | ⟨tp, e⟩ <;> rw [e] <;>
      exact hi
  | invalidCb typ nr f =>
    injection h with h; subst h
    rcases setModCb_keeps env s typ nr (fun v tp => { v with invalidCb := upd v.invalidCb tp f }) with e | ⟨tp, e⟩ <;> rw [e] <;>
      exact hi
  | reqCb typ nr f =>
    injection h with h; subst h
    rcases setModCb_keeps env s typ nr (fun v tp => { v with reqCb := upd v.reqCb tp f }) with e | ⟨tp, e⟩ <;> rw [e] <;>
      exact hi
  | timeCb f =>
    injection h with h; subst h
    unfold setTimeCb; split <;> exact hi
  | resetCb f =>
    injection h with h; subst h
    unfold setResetCb; split <;> exact hi
  | init baud => exact absurd hb id
  | table o => injection h with h; subst h; exact hi.step he hb
  | setMode m => injection h with h; subst h; exact hi
  | setBaud b => injection h with h; subst h; exact hi
  | allCb f => injection h with h; subst h; exact hi
  | firstCb f => injection h with h; subst h; exact hi
  | firstStatusCb f => injection h with h; subst h; exact hi

theorem SReach.defs {env : Env} (he : EnvOk env) {s : Slave} (h : SReach env s) : DefInv env s.node.hw := by
  refine (h.ind (fun s => ReqInv s ∧ DefInv env s.node.hw) ?_ ?_).2
  · intro mem baud hok
    obtain ⟨a, b, c, -, -⟩ := init_ok hok
    refine ⟨⟨by rw [c]; rfl, by rw [c]; exact Or.inl ⟨rfl, rfl⟩⟩, ?_⟩
    rw [b]
    exact DefInv.init he.o32 _
  · intro s s' i hb hp hs
    exact ⟨hp.1.step hs, hp.2.slaveStep he hp.1 hb hs⟩

theorem bit_and_iff (x : BitVec 32) (o : Nat) (ho : o < 32) : Node.bit o &&& x ≠ 0 ↔ x.getLsbD o = true := by
  constructor
  · intro h
    obtain ⟨p, hp⟩ := exists_bit h
    simp only [BitVec.getLsbD_and, Bool.and_eq_true, bit_get _ _ ho, decide_eq_true_eq] at hp
    rw [← hp.1]
    exact hp.2
  · intro h
    apply ne_zero_of_bit (p := o)
    simp [bit_get _ _ ho, h]

theorem TableInv.registered {env : Env} {n : Node} (h : TableInv env n) (he : EnvOk env) {i : Nat}
    (hi : (n.rows i).typ ≠ []) : i < env.maxMod ∧ (n.rows i).rxObj ≤ 4 ∧
      ((2 ≤ (n.rows i).nr ∧ (n.rows i).nr ≤ 124) ∨ (n.rows i).nr = 125 + i) := by
  obtain ⟨t, g, hn⟩ := h
  have hl := (g.sim.registered i).1 hi
  have hm : t.mods[i]? = some t.mods[i] := by simp [hl]
  have r := g.sim.row i _ hm
  exact ⟨Nat.lt_of_lt_of_le hl g.sim.len, r.rx4, by rw [r.nr]; exact hn.range i _ hm⟩

theorem TableInv.distinct {env : Env} {n : Node} (h : TableInv env n) {i k : Nat}
    (hi : (n.rows i).typ ≠ []) (hk : (n.rows k).typ ≠ []) (e : (n.rows i).nr = (n.rows k).nr) : i = k := by
  obtain ⟨t, g, hn⟩ := h
  have hl := (g.sim.registered i).1 hi
  have hl' := (g.sim.registered k).1 hk
  have hm : t.mods[i]? = some t.mods[i] := by simp [hl]
  have hm' : t.mods[k]? = some t.mods[k] := by simp [hl']
  by_cases hik : i = k
  · exact hik
  · exfalso
    rw [(g.sim.row i _ hm).nr, (g.sim.row k _ hm').nr] at e
    exact hn.dist i k _ _ hm hm' hik e

/-- frames for identifiers 0x200 + .. that the controller hands over are attributed to the module and
object in the identifier -/
theorem TableInv.counts_iff {env : Env} (he : EnvOk env) {n : Node} (h : TableInv env n) (hd : DefInv env n.hw)
    (i j obj dlc id : Nat) (d : ObjDef) (ho : obj < env.nObj) (hdef : n.hw.defs obj = some d) (hid : id < 0x800)
    (hacc : hwAccepts (BitVec.ofNat 16 d.id) d.mask (BitVec.ofNat 16 id) = true)
    (hi : (n.rows i).typ ≠ []) (hj : j < (n.rows i).rxObj) :
    counts env n i j obj dlc id = true ↔
      id = 0x200 + 4 * ((n.rows i).nr - 1) + j ∧ (env.chk = true → dlc = (n.rows i).rxDlcSync j) := by
  have h32 := he.o32
  have h8 := he.m8
  obtain ⟨ri, r4, rn⟩ := h.registered he hi
  have own : ∀ i', n.slotRow obj = some i' → (n.rows i').typ ≠ [] ∧
      ∃ j' < (n.rows i').rxObj, id = 0x200 + 4 * ((n.rows i').nr - 1) + j' := by
    intro i' hs
    have h0 := h
    obtain ⟨t, g, hn⟩ := h
    have hm := (slotRow_iff g.hw h32 obj (by omega) i').1 hs
    obtain ⟨j', hj', e1, e2⟩ := g.hw.slot _ hm
    simp only [rxBd] at hj'
    split at hj'
    · next hl =>
      have hreg := (g.sim.registered i').2 hl
      obtain ⟨q1, q2, q3⟩ := h0.registered he hreg
      refine ⟨hreg, j', hj', ?_⟩
      simp only [rxDef, syncRxId] at e2
      rw [idOf_eq _ _ _ (by omega) (by omega)] at e2
      rw [e2, Option.some.injEq] at hdef
      subst hdef
      simp only [hwAccepts, beq_iff_eq] at hacc
      have key : ∀ x : Nat, x < 0x800 → (BitVec.ofNat 16 x &&& 0x7FF#16) = BitVec.ofNat 16 x := by
        intro x hx
        apply BitVec.eq_of_toNat_eq
        simp only [BitVec.toNat_and, BitVec.toNat_ofNat]
        rw [show (2047 % 2 ^ 16) = 2 ^ 11 - 1 from rfl, Nat.and_two_pow_sub_one_eq_mod]
        omega
      rw [key _ hid, key _ (by omega)] at hacc
      have := congrArg BitVec.toNat hacc
      simp only [BitVec.toNat_ofNat] at this
      omega
    · omega
  constructor
  · intro hc
    simp only [counts, Bool.and_eq_true, decide_eq_true_eq, beq_iff_eq, Bool.or_eq_true, Bool.not_eq_true'] at hc
    obtain ⟨⟨⟨_, hs⟩, ho'⟩, hk⟩ := hc
    obtain ⟨_, j', hj', e⟩ := own i hs
    have : j' = j := by rw [← ho']; unfold syncObjOfId; omega
    subst this
    refine ⟨e, fun hck => ?_⟩
    rw [hck] at hk
    simpa using (hk.resolve_left (by simp)).2
  · rintro ⟨e, hk⟩
    have hsvc : d.svc = .rx true := by
      by_cases hs : d.svc = .rx true
      · exact hs
      · have := ((hd.all obj ho d hdef).2 hs).reject (id := id) (by omega) (by omega)
        rw [this] at hacc; cases hacc
    have hbit := (hd.all obj ho d hdef).1 hsvc
    have hslot : ∃ i', n.slotRow obj = some i' := by
      obtain ⟨t, g, hn⟩ := h
      have := (g.hw.isr obj (by omega)).1 hbit
      obtain ⟨⟨a, i'⟩, hm, ha⟩ := List.mem_map.1 this
      simp only at ha; subst ha
      exact ⟨i', (slotRow_iff g.hw h32 a (by omega) i').2 hm⟩
    obtain ⟨i', hs⟩ := hslot
    obtain ⟨hreg, j', hj', e'⟩ := own i' hs
    obtain ⟨q1, q2, q3⟩ := h.registered he hreg
    have hnr : (n.rows i').nr = (n.rows i).nr := by omega
    have := h.distinct hreg hi hnr
    subst this
    have hsn : syncNrOfId id = (n.rows i').nr := by
      rw [syncNrOfId_eq _ (by omega) hid]; omega
    have hso : syncObjOfId id = j := by unfold syncObjOfId; omega
    simp only [counts, Bool.and_eq_true, decide_eq_true_eq, beq_iff_eq, Bool.or_eq_true, Bool.not_eq_true']
    refine ⟨⟨⟨(bit_and_iff _ _ (by omega)).2 hbit, hs⟩, hso⟩, ?_⟩
    cases hck : env.chk with
    | false => exact .inl rfl
    | true => exact .inr ⟨hsn, hk hck⟩

end Slave
end LiCan
