import Verif.Lemmas.Cpu2Wires
import Verif.Lemmas.Cpu2Link
import Verif.Lemmas.Owned
import Verif.Lemmas.NodeGood
/-! # The monitor CPU: message objects, filters and switched conversions over histories -/
namespace LiCan
namespace Cpu2
open Node Slave

/-! ## Filters that never accept data -/

theorem accepts_mod (a id : Nat) (hid : id < 2048) (h : hwAccepts (BitVec.ofNat 16 a) 0x7FF#16 (BitVec.ofNat 16 id) = true) :
    a % 2048 = id := by
  simp only [hwAccepts, beq_iff_eq] at h
  have h2 := congrArg BitVec.toNat h
  simp only [BitVec.toNat_and, BitVec.toNat_ofNat] at h2
  have e : ∀ x, x &&& 2047 = x % 2048 := fun x => Nat.and_two_pow_sub_one_eq_mod x 11
  have h3 : id % 65536 &&& 2047 = a % 65536 &&& 2047 := h2
  rw [e, e] at h3
  omega

theorem notData_id {d : ObjDef} (hm : d.mask = 0x7FF#16) (h : d.id % 2048 < 0x200 ∨ 0x600 ≤ d.id % 2048) : NotData d := by
  intro id h1 h2
  cases hx : hwAccepts (BitVec.ofNat 16 d.id) d.mask (BitVec.ofNat 16 id)
  · rfl
  · rw [hm] at hx
    have := accepts_mod _ _ (by omega) hx
    omega

theorem notData_svc {d : ObjDef} (nrs : List Nat) (hm : d.mask = acceptMask nrs) (hi : d.id = 0x002 ∨ d.id = 0x602) : NotData d := by
  intro id h1 h2
  cases hx : hwAccepts (BitVec.ofNat 16 d.id) d.mask (BitVec.ofNat 16 id)
  · rfl
  · rw [hm] at hx
    have := low_bits nrs d.id hi id (by omega) hx
    omega

theorem notData_ctrl {nr : Nat} (h1 : 1 ≤ nr) (h2 : nr ≤ 256) : NotData ⟨asyncCtrlRxId nr, 0x7FF#16, 8, .asyncCtrlRx⟩ := by
  refine notData_id rfl ?_
  simp only [asyncCtrlRxId, idOf]
  omega

/-! ## The invariant -/

def lims (c : Cpu2) (b : Bool) (tp : Nat) : Nat := if b then (c.s.node.rows tp).txObj else (c.s.node.rows tp).rxObj
def obs (c : Cpu2) (b : Bool) (tp i : Nat) : Nat := if b then (c.x tp).obj i else (c.s.node.rows tp).rxMsgObj i
def dfs (c : Cpu2) (b : Bool) (tp i : Nat) : ObjDef :=
  if b then ⟨syncTxId (c.s.node.rows tp).nr i, 0x7FF#16, (c.s.node.rows tp).txDlc i, .rx true⟩
  else ⟨syncRxId (c.s.node.rows tp).nr i, 0x7FF#16, (c.s.node.rows tp).rxDlc i, .rx true⟩

/-- the copies of a row are those of a module switched on or those of a module switched off -/
def Switched (r : Row) (x : Cpu2Row) : Prop :=
  (r.txObjSync = r.txObj ∧ (∀ i < r.txObj, x.convSync i = x.conv i) ∧ ∀ i < r.rxObj, r.rxDlcSync i = r.rxDlc i ∧ r.rxMainSync i = r.rxMain i) ∨
  (r.txObjSync = 0 ∧ (∀ i < r.txObj, x.convSync i = .dummy) ∧ ∀ i < r.rxObj, r.rxDlcSync i = 0 ∧ r.rxMainSync i = .dummy)

structure Rig (env : Env) (S : Nat → Prop) (c : Cpu2) : Prop where
  w    : Wires env c.s.node.hw c.s.node.slots (lims c) (obs c) (dfs c)
  max  : ∀ tp, (c.s.node.rows tp).txObj ≤ 4 ∧ (c.s.node.rows tp).rxObj ≤ 4
  free : ∀ tp, (c.s.node.rows tp).typ = [] → (c.s.node.rows tp).txObj = 0 ∧ (c.s.node.rows tp).rxObj = 0
  sw   : ∀ tp, S tp → Switched (c.s.node.rows tp) (c.x tp)
  chg  : ∀ tp, c.s.node.chg tp = none
  big  : ∀ tp, env.maxMod ≤ tp → (c.s.node.rows tp).typ = []

theorem Rig.weaken {env : Env} {S T : Nat → Prop} {c : Cpu2} (h : Rig env S c) (hs : ∀ t, T t → S t) : Rig env T c :=
  ⟨h.w, h.max, h.free, fun t ht => h.sw t (hs t ht), h.chg, h.big⟩

/-- same message objects and registered data -/
theorem Rig.same {env : Env} {S T : Nat → Prop} {c c' : Cpu2} (h : Rig env S c) (hn : SameHw c.s.node c'.s.node)
    (hx : ∀ t, (c'.x t).obj = (c.x t).obj) (hs : ∀ t, T t → Switched (c'.s.node.rows t) (c'.x t)) : Rig env T c' := by
  have f := hn.fields
  refine ⟨?_, fun t => ?_, fun t ht => ?_, hs, fun t => by rw [hn.chg]; exact h.chg t, fun t ht => by rw [(f t).1]; exact h.big t ht⟩
  · rw [hn.hw, hn.slots]
    refine h.w.congr (fun b t => ?_) (fun b t i _ => ?_) (fun b t i _ => ?_)
    · unfold lims; rw [(f t).2.2.1, (f t).2.2.2.1]
    · unfold obs; rw [hx, (f t).2.2.2.2.2.2.2.2.2.2]
    · unfold dfs; rw [(f t).2.1, (f t).2.2.2.2.1, (f t).2.2.2.2.2.1]
  · rw [(f t).2.2.1, (f t).2.2.2.1]; exact h.max t
  · rw [(f t).1] at ht
    rw [(f t).2.2.1, (f t).2.2.2.1]; exact h.free t ht

/-- nothing of the table changes -/
theorem Rig.keep {env : Env} {S : Nat → Prop} {c c' : Cpu2} (h : Rig env S c) (h1 : c'.s.node.hw = c.s.node.hw)
    (h2 : c'.s.node.slots = c.s.node.slots) (h3 : c'.s.node.rows = c.s.node.rows) (h4 : c'.s.node.chg = c.s.node.chg)
    (h5 : c'.x = c.x) : Rig env S c' := by
  refine ⟨?_, fun t => by rw [h3]; exact h.max t, fun t => by rw [h3]; exact h.free t, fun t ht => by rw [h3, h5]; exact h.sw t ht,
    fun t => by rw [h4]; exact h.chg t, fun t ht => by rw [h3]; exact h.big t ht⟩
  have e1 : lims c' = lims c := by funext b t; simp only [lims, h3]
  have e2 : obs c' = obs c := by funext b t i; simp only [obs, h3, h5]
  have e3 : dfs c' = dfs c := by funext b t i; simp only [dfs, h3]
  rw [h1, h2, e1, e2, e3]; exact h.w

/-- a filter for other messages is programmed -/
theorem Rig.aside {env : Env} {S : Nat → Prop} {c : Cpu2} (h : Rig env S c) {o : Nat} {d : ObjDef}
    (ho : ∀ t, (o, t) ∉ c.s.node.slots) (hd : d.svc ≠ .rx true) (hx : NotData d) :
    Rig env S (c.setNode { c.s.node with hw := defHw c.s.node.hw o d }) :=
  ⟨h.w.aside ho hd hx, h.max, h.free, h.sw, h.chg, h.big⟩

theorem Rig.fixed {env : Env} {S : Nat → Prop} {c : Cpu2} (h : Rig env S c) {o : Nat} (ho : Fixed env o) :
    ∀ t, (o, t) ∉ c.s.node.slots := fun _ ht => (h.w.ok _ ht).2.2.2 ho

/-! ## Switching -/

theorem switched_on (r : Row) (x : Cpu2Row) : Switched (onRow r) (xOn r.txObj x) := by
  refine .inl ⟨rfl, fun i hi => ?_, fun i hi => ?_⟩
  · have hi : i < r.txObj := hi
    simp only [xOn, if_pos hi]
  · have hi : i < r.rxObj := hi
    simp only [onRow, first, if_pos hi, and_self]

theorem switched_off (r : Row) (x : Cpu2Row) : Switched (offRow r) (xOff r.txObj x) := by
  refine .inr ⟨rfl, fun i hi => ?_, fun i hi => ?_⟩
  · have hi : i < r.txObj := hi
    simp only [xOff, if_pos hi]
  · have hi : i < r.rxObj := hi
    simp only [offRow, first, if_pos hi, and_self]

theorem syncOn_rig {env : Env} {S : Nat → Prop} {c : Cpu2} (h : Rig env S c) (tp : Nat) :
    Rig env (fun t => S t ∨ t = tp) (c.syncOn tp) := by
  refine h.same (syncOn_sameHw _ tp) (fun t => ?_) (fun t ht => ?_)
  · show (upd c.x tp _ t).obj = _
    by_cases e : t = tp
    · subst e; rw [upd_same]; rfl
    · rw [upd_other _ _ e]
  · show Switched ((Node.syncOn c.s.node tp).rows t) (upd c.x tp _ t)
    rw [syncOn_eq]
    show Switched (upd c.s.node.rows tp _ t) (upd c.x tp _ t)
    by_cases e : t = tp
    · subst e; rw [upd_same, upd_same]; exact switched_on _ _
    · rw [upd_other _ _ e, upd_other _ _ e]
      exact h.sw t (ht.resolve_right e)

theorem syncOff_rig {env : Env} {S : Nat → Prop} {c : Cpu2} (h : Rig env S c) (tp : Nat) :
    Rig env (fun t => S t ∨ t = tp) (c.syncOff env tp) := by
  refine h.same (syncOff_sameHw env _ tp) (fun t => ?_) (fun t ht => ?_)
  · show (upd c.x tp _ t).obj = _
    by_cases e : t = tp
    · subst e; rw [upd_same]; rfl
    · rw [upd_other _ _ e]
  · show Switched ((Node.syncOff env c.s.node tp).rows t) (upd c.x tp _ t)
    obtain ⟨m, u, hh⟩ := syncOff_eq env c.s.node tp
    rw [hh]
    show Switched (upd c.s.node.rows tp _ t) (upd c.x tp _ t)
    by_cases e : t = tp
    · subst e; rw [upd_same, upd_same]; exact switched_off _ _
    · rw [upd_other _ _ e, upd_other _ _ e]
      exact h.sw t (ht.resolve_right e)

theorem setSilentAwake_rig {env : Env} {S : Nat → Prop} {c : Cpu2} (h : Rig env S c) (tp st : Nat) :
    Rig env S (c.setSilentAwake env tp st).1 ∧
    ((c.setSilentAwake env tp st).2 = E.ok → Rig env (fun t => S t ∨ t = tp) (c.setSilentAwake env tp st).1) := by
  unfold setSilentAwake
  split
  · extract_lets n c1
    have h1 : Rig env S c1 := h.keep rfl rfl rfl rfl rfl
    clear_value c1
    split
    · exact ⟨(syncOff_rig h1 tp).weaken fun t ht => .inl ht, fun _ => syncOff_rig h1 tp⟩
    · split
      · exact ⟨(syncOn_rig h1 tp).weaken fun t ht => .inl ht, fun _ => syncOn_rig h1 tp⟩
      · exact ⟨h1, fun h => nomatch h⟩
  · exact ⟨h, fun h => nomatch h⟩

/-! ## The end of registration and number change -/

theorem define_rig {env : Env} (hh : ∀ k, env.hwOk k = true) {S : Nat → Prop} {c : Cpu2} (h : Rig env S c) {o : Nat} {d : ObjDef}
    (hl : o < env.nObj) (ho : ∀ t, (o, t) ∉ c.s.node.slots) (hd : d.svc ≠ .rx true) (hx : NotData d) :
    Rig env S (c.onNode (define env · o d)).1 := by
  show Rig env S (c.setNode (define env c.s.node o d).1)
  rw [define_hw hh _ hl]
  exact h.aside ho hd hx

theorem andThen_rig {env : Env} {S : Nat → Prop} {r : Cpu2 × Err} {f : Cpu2 → Cpu2 × Err} (h : Rig env S r.1)
    (hf : ∀ c, Rig env S c → Rig env S (f c).1) : Rig env S (andThen r f).1 := by
  unfold andThen; split
  · exact hf _ h
  · exact h

theorem andThen_snd {r : Cpu2 × Err} {f : Cpu2 → Cpu2 × Err} (h : (andThen r f).2 = E.ok) :
    r.2 = E.ok ∧ andThen r f = f r.1 ∧ (f r.1).2 = E.ok := by
  unfold andThen at h ⊢
  split at h
  · next e => rw [if_pos e]; exact ⟨e, rfl, h⟩
  · next e => exact absurd h e

theorem defineCtrl_rig {env : Env} (hh : ∀ k, env.hwOk k = true) {S : Nat → Prop} {c : Cpu2} (h : Rig env S c) (idx nr : Nat)
    (h1 : 1 ≤ nr) (h2 : nr ≤ 256) : Rig env S (c.onNode (defineCtrl env · idx nr)).1 := by
  show Rig env S (c.setNode (defineCtrl env c.s.node idx nr).1)
  unfold defineCtrl
  split
  · exact h.keep rfl rfl rfl rfl rfl
  · split
    · exact h.keep rfl rfl rfl rfl rfl
    · next o ho =>
      obtain ⟨ho1, ho2⟩ := nextFree_some ho
      rw [define_hw hh _ ho1]
      have k : Rig env S (c.setNode { c.s.node with ctrlObj := upd c.s.node.ctrlObj idx o }) := h.keep rfl rfl rfl rfl rfl
      refine k.aside (fun t ht => ?_) (fun e => nomatch e) (notData_ctrl h1 h2)
      have := (h.w.ok _ ht).2.1
      rw [ho2] at this; cases this

theorem finish_rig {env : Env} (hh : ∀ k, env.hwOk k = true) (h10 : 10 < env.nObj) {S : Nat → Prop} {c : Cpu2}
    (h : Rig env S c) (tp idx nr : Nat) (nrs : List Nat) (h1 : 1 ≤ nr) (h2 : nr ≤ 256) :
    Rig env S (c.finish env tp idx nr nrs).1 ∧
    ((c.finish env tp idx nr nrs).2 = E.ok → Rig env (fun t => S t ∨ t = tp) (c.finish env tp idx nr nrs).1) := by
  unfold finish
  extract_lets r1 r2 r3 r4
  have k1 : Rig env S r1.1 := defineCtrl_rig hh h idx nr h1 h2
  clear_value r1
  have k2 : Rig env S r2.1 := andThen_rig k1 fun c hc =>
    define_rig hh hc (by omega) (hc.fixed (by simp [Fixed])) (fun e => nomatch e) (notData_svc nrs rfl (.inr rfl))
  clear_value r2
  have k3 : Rig env S r3.1 := andThen_rig k2 fun c hc =>
    define_rig hh hc (by omega) (hc.fixed (by simp [Fixed])) (fun e => nomatch e) (notData_svc nrs rfl (.inl rfl))
  clear_value r3
  have k4 : Rig env S r4.1 := andThen_rig k3 fun c hc => by
    split
    · next hs => exact define_rig hh hc (by omega) (hc.fixed (by simp [Fixed, hs])) (fun e => nomatch e) (notData_svc nrs rfl (.inl rfl))
    · exact hc
  clear_value r4
  refine ⟨andThen_rig k4 fun c hc => (setSilentAwake_rig hc tp _).1, fun e => ?_⟩
  obtain ⟨e1, e2, e3⟩ := andThen_snd e
  rw [e2]
  exact (setSilentAwake_rig k4 tp _).2 e3

/-! ## Loops -/

theorem loop_append (f : Nat → Cpu2 → Cpu2 × Err) (a : List Nat) : ∀ (b : List Nat) (c : Cpu2),
    loop f (a ++ b) c = andThen (loop f a c) (loop f b) := by
  induction a with
  | nil => intro b c; simp [loop, andThen]
  | cons i is ih =>
    intro b c
    show andThen (f i c) (loop f (is ++ b)) = andThen (andThen (f i c) (loop f is)) (loop f b)
    unfold andThen
    by_cases e : (f i c).2 = E.ok
    · rw [if_pos e, if_pos e, ih]; rfl
    · rw [if_neg e, if_neg e, if_neg e]

theorem loop_succ (f : Nat → Cpu2 → Cpu2 × Err) (k : Nat) (c : Cpu2) :
    loop f (List.range (k + 1)) c = andThen (loop f (List.range k) c) (f k) := by
  rw [List.range_succ, loop_append]
  congr 1
  funext c
  show andThen (f k c) (fun c => (c, E.ok)) = _
  unfold andThen
  split
  · next e => exact Prod.ext rfl e.symm
  · rfl

theorem loop_all {f : Nat → Cpu2 → Cpu2 × Err} (P : Nat → Cpu2 → Prop) (k : Nat)
    (hs : ∀ j < k, ∀ c, P j c → (f j c).2 = E.ok → P (j + 1) (f j c).1) (c : Cpu2) (h0 : P 0 c)
    (hk : (loop f (List.range k) c).2 = E.ok) : P k (loop f (List.range k) c).1 := by
  induction k with
  | zero => exact h0
  | succ k ih =>
    rw [loop_succ] at hk ⊢
    obtain ⟨e1, e2, e3⟩ := andThen_snd hk
    rw [e2]
    exact hs k (by omega) _ (ih (fun j hj => hs j (by omega)) e1) e3

theorem loop_ok {f : Nat → Cpu2 → Cpu2 × Err} (P : Nat → Cpu2 → Prop) (k : Nat)
    (hs : ∀ j < k, ∀ c, P j c → (f j c).2 = E.ok ∧ P (j + 1) (f j c).1) (c : Cpu2) (h0 : P 0 c) :
    (loop f (List.range k) c).2 = E.ok ∧ P k (loop f (List.range k) c).1 := by
  induction k with
  | zero => exact ⟨rfl, h0⟩
  | succ k ih =>
    have ih := ih (fun j hj => hs j (by omega))
    rw [loop_succ, andThen, if_pos ih.1]
    exact hs k (by omega) _ ih.2

theorem forErr_ok {f : Nat → Node → Node × Err} (P : Nat → Node → Prop) (k : Nat)
    (hs : ∀ j < k, ∀ n, P j n → (f j n).2 = E.ok ∧ P (j + 1) (f j n).1) (n : Node) (h0 : P 0 n) :
    (forErr f (List.range k) n).2 = E.ok ∧ P k (forErr f (List.range k) n).1 := by
  induction k with
  | zero => exact ⟨rfl, h0⟩
  | succ k ih =>
    have ih := ih (fun j hj => hs j (by omega))
    rw [forErr_range_succ, thenOk, if_pos ih.1]
    exact hs k (by omega) _ ih.2

/-! ## Number change -/

/-- definitions during a number change of row `tp`: the first `jt` transmit and `jr` receive ports are new -/
def mix (c0 c1 : Cpu2) (tp jt jr : Nat) (b : Bool) (t i : Nat) : ObjDef :=
  if t = tp ∧ ¬ i < (if b then jt else jr) then dfs c0 b t i else dfs c1 b t i

theorem changeNr_rig {env : Env} (hh : ∀ k, env.hwOk k = true) (h10 : 10 < env.nObj) (hn : env.nObj ≤ 32) {S : Nat → Prop} {c : Cpu2}
    (h : Rig env S c) (typ : List Byte) (nr act : Nat) (h1 : 1 ≤ nr) (h2 : nr ≤ 256) : Rig env S (c.changeNr env typ nr act).1 := by
  unfold changeNr
  split
  · exact h.keep rfl rfl rfl rfl rfl
  next tp _ =>
  extract_lets c1
  have r1 : c1.s.node.rows = upd c.s.node.rows tp { c.s.node.rows tp with nr := nr } := rfl
  have x1 : c1.x = c.x := rfl
  have s1 : c1.s.node.slots = c.s.node.slots := rfl
  have hw1 : c1.s.node.hw = c.s.node.hw := rfl
  have g1 : c1.s.node.chg = c.s.node.chg := rfl
  have n1 : (c1.s.node.rows tp).nr = nr := by rw [r1, upd_same]
  have ol : lims c1 = lims c := by
    funext b t
    simp only [lims, r1]
    by_cases e : t = tp
    · subst e; simp only [upd_same]
    · simp only [upd_other _ _ e]
  have oo : obs c1 = obs c := by
    funext b t i
    simp only [obs, r1, x1]
    by_cases e : t = tp
    · subst e; simp only [upd_same]
    · simp only [upd_other _ _ e]
  have od : ∀ b t i, t ≠ tp → dfs c1 b t i = dfs c b t i := by
    intro b t i e
    simp only [dfs, r1, upd_other _ _ e]
  clear_value c1
  -- the common part of the intermediate states
  let Q : Nat → Nat → Node → Prop := fun jt jr n =>
    n.rows = c1.s.node.rows ∧ n.slots = c1.s.node.slots ∧ n.chg = c1.s.node.chg ∧
    Wires env n.hw c1.s.node.slots (lims c1) (obs c1) (mix c c1 tp jt jr)
  have q0 : Q 0 0 c1.s.node := by
    refine ⟨rfl, rfl, rfl, ?_⟩
    rw [s1, hw1, ol, oo]
    refine h.w.congr (fun _ _ => rfl) (fun _ _ _ _ => rfl) (fun b t i _ => ?_)
    unfold mix
    by_cases ht : t = tp
    · rw [if_pos ⟨ht, by cases b <;> simp⟩]
    · rw [if_neg (fun e => ht e.1)]; exact od b t i ht
  have key : ∀ (b : Bool) (jt jr : Nat) (n : Node), Q jt jr n → (if b then jt else jr) < lims c1 b tp →
      Q (if b then jt + 1 else jt) (if b then jr else jr + 1)
        { n with hw := defHw n.hw (obs c1 b tp (if b then jt else jr)) (dfs c1 b tp (if b then jt else jr)) } := by
    intro b jt jr n ⟨q1, q2, q3, q4⟩ hj
    refine ⟨q1, q2, q3, ?_⟩
    refine q4.redef hn hj (by unfold dfs; split <;> rfl) ?_ (fun b' t j hj' hne => ?_)
    · unfold mix
      rw [if_neg (fun e => e.2 (by cases b <;> simp))]
    · unfold mix
      by_cases ht : t = tp
      · subst ht
        have : (j < (if b' then (if b then jt + 1 else jt) else (if b then jr else jr + 1))) ↔ j < (if b' then jt else jr) := by
          cases b <;> cases b' <;> simp at hne ⊢ <;> omega
        simp only [this]
      · rw [if_neg (fun e => ht e.1), if_neg (fun e => ht e.1)]
  -- transmit ports
  have t1 := loop_ok (f := renumTx1 env tp nr) (fun j d => d.x = c1.x ∧ Q j 0 d.s.node) (c1.s.node.rows tp).txObj (by
    intro j hj d ⟨dx, dq⟩
    have hl : j < lims c1 true tp := by simpa [lims] using hj
    have ho := (dq.2.2.2.ok _ (dq.2.2.2.port true tp j hl).1).1
    have eo : (d.x tp).obj j = obs c1 true tp j := by simp [obs, dx]
    have ed : (⟨syncTxId nr j, 0x7FF#16, (d.s.node.rows tp).txDlc j, .rx true⟩ : ObjDef) = dfs c1 true tp j := by
      simp [dfs, dq.1, n1]
    unfold renumTx1 onNode
    dsimp only
    rw [ed, eo, define_hw hh _ ho]
    exact ⟨rfl, dx, by simpa [setNode] using key true j 0 d.s.node dq (by simpa using hl)⟩) c1 ⟨rfl, q0⟩
  unfold renumTx
  unfold andThen
  rw [if_pos t1.1]
  obtain ⟨tx, tq⟩ := t1.2
  generalize (loop (renumTx1 env tp nr) (List.range (c1.s.node.rows tp).txObj) c1).1 = d at tx tq ⊢
  have t2 := forErr_ok (f := fun i n => define env n ((n.rows tp).rxMsgObj i)
      ⟨syncRxId nr i, 0x7FF#16, (n.rows tp).rxDlc i, .rx true⟩)
    (fun j n => Q (c1.s.node.rows tp).txObj j n) (c1.s.node.rows tp).rxObj (by
    intro j hj n dq
    have hl : j < lims c1 false tp := by simpa [lims] using hj
    have ho := (dq.2.2.2.ok _ (dq.2.2.2.port false tp j hl).1).1
    have eo : (n.rows tp).rxMsgObj j = obs c1 false tp j := by simp [obs, dq.1]
    have ed : (⟨syncRxId nr j, 0x7FF#16, (n.rows tp).rxDlc j, .rx true⟩ : ObjDef) = dfs c1 false tp j := by
      simp [dfs, dq.1, n1]
    show (define env n ((n.rows tp).rxMsgObj j) _).2 = _ ∧ Q _ _ (define env n ((n.rows tp).rxMsgObj j) _).1
    rw [ed, eo, define_hw hh _ ho]
    exact ⟨rfl, by simpa using key false _ j n dq (by simpa using hl)⟩) d.s.node tq
  have e2 : d.onNode (renumRx env · tp nr) = (d.setNode (renumRx env d.s.node tp nr).1, (renumRx env d.s.node tp nr).2) := rfl
  dsimp only
  rw [e2]
  dsimp only
  unfold renumRx
  rw [tq.1, if_pos t2.1]
  obtain ⟨q1, q2, q3, q4⟩ := t2.2
  generalize (forErr (fun i n => define env n ((n.rows tp).rxMsgObj i)
      ⟨syncRxId nr i, 0x7FF#16, (n.rows tp).rxDlc i, .rx true⟩) (List.range (c1.s.node.rows tp).rxObj) d.s.node).1 = n at q1 q2 q3 q4 ⊢
  refine (finish_rig hh h10 ?_ _ _ _ _ h1 h2).1
  have ex : (d.setNode n).x = c1.x := tx
  have er : (d.setNode n).s.node.rows = c1.s.node.rows := q1
  have el : lims (d.setNode n) = lims c1 := by funext b t; simp only [lims, er]
  have eb : obs (d.setNode n) = obs c1 := by funext b t i; simp only [obs, er, ex]
  have ed : dfs (d.setNode n) = dfs c1 := by funext b t i; simp only [dfs, er]
  refine ⟨?_, fun t => ?_, fun t ht => ?_, fun t ht => ?_, fun t => ?_, fun t ht => ?_⟩
  · show Wires env n.hw n.slots _ _ _
    rw [q2, el, eb, ed]
    refine q4.congr (fun _ _ => rfl) (fun _ _ _ _ => rfl) (fun b t i hi => ?_)
    unfold mix
    by_cases ht : t = tp
    · subst ht
      rw [if_neg]
      rintro ⟨-, e⟩
      apply e
      cases b <;> simpa [lims] using hi
    · rw [if_neg (fun e => ht e.1)]
  · rw [er, r1]
    by_cases e : t = tp
    · subst e; simp only [upd_same]; exact h.max t
    · rw [upd_other _ _ e]; exact h.max t
  · rw [er, r1] at ht ⊢
    by_cases e : t = tp
    · subst e; simp only [upd_same] at ht ⊢; exact h.free t ht
    · rw [upd_other _ _ e] at ht ⊢; exact h.free t ht
  · rw [er, ex, r1, x1]
    by_cases e : t = tp
    · subst e; simp only [upd_same]; exact h.sw t ht
    · rw [upd_other _ _ e]; exact h.sw t ht
  · show n.chg t = none
    rw [q3, g1]; exact h.chg t
  · rw [er, r1]
    by_cases e : t = tp
    · subst e; simp only [upd_same]; exact h.big t ht
    · rw [upd_other _ _ e]; exact h.big t ht

theorem changeModuleNr_rig {env : Env} (hh : ∀ k, env.hwOk k = true) (h10 : 10 < env.nObj) (hn : env.nObj ≤ 32) {S : Nat → Prop}
    {c : Cpu2} (h : Rig env S c) (tp nr : Nat) (h1 : 1 ≤ nr) (h2 : nr ≤ 256) : Rig env S (c.changeModuleNr env tp nr).1 := by
  unfold changeModuleNr
  extract_lets r
  split
  · exact changeNr_rig hh h10 hn h _ _ _ h1 h2
  · split
    · exact andThen_rig (changeNr_rig hh h10 hn h _ _ _ h1 h2) fun c hc => (setSilentAwake_rig hc tp _).1
    · exact andThen_rig (changeNr_rig hh h10 hn h _ _ _ h1 h2) fun c hc => (setSilentAwake_rig hc tp _).1
    · exact h

/-! ## Registration -/

/-- ports while row `tp` is being filled -/
def limj (c : Cpu2) (tp jt jr : Nat) (b : Bool) (t : Nat) : Nat := if t = tp then (if b then jt else jr) else lims c b t

/-- the registered data of row `tp` that stay while it is being filled, and the other rows -/
structure Fill (tp : Nat) (a d : Cpu2) : Prop where
  rows : ∀ t, t ≠ tp → d.s.node.rows t = a.s.node.rows t
  x    : ∀ t, t ≠ tp → d.x t = a.x t
  typ  : (d.s.node.rows tp).typ = (a.s.node.rows tp).typ
  nr   : (d.s.node.rows tp).nr = (a.s.node.rows tp).nr
  txo  : (d.s.node.rows tp).txObj = (a.s.node.rows tp).txObj
  rxo  : (d.s.node.rows tp).rxObj = (a.s.node.rows tp).rxObj
  txd  : (d.s.node.rows tp).txDlc = (a.s.node.rows tp).txDlc
  rxd  : (d.s.node.rows tp).rxDlc = (a.s.node.rows tp).rxDlc
  chg  : d.s.node.chg = a.s.node.chg

theorem Fill.refl (tp : Nat) (a : Cpu2) : Fill tp a a := ⟨fun _ _ => rfl, fun _ _ => rfl, rfl, rfl, rfl, rfl, rfl, rfl, rfl⟩
theorem Fill.trans {tp : Nat} {a b c : Cpu2} (h : Fill tp a b) (g : Fill tp b c) : Fill tp a c :=
  ⟨fun t e => (g.rows t e).trans (h.rows t e), fun t e => (g.x t e).trans (h.x t e), g.typ.trans h.typ, g.nr.trans h.nr,
   g.txo.trans h.txo, g.rxo.trans h.rxo, g.txd.trans h.txd, g.rxd.trans h.rxd, g.chg.trans h.chg⟩

theorem newport {env : Env} (hn : env.nObj ≤ 32) (c0 : Cpu2) (tp jt jr : Nat) (b : Bool) {d d' : Cpu2} {o : Nat}
    (h : Wires env d.s.node.hw d.s.node.slots (limj c0 tp jt jr) (obs d) (dfs d)) (f : Fill tp d d')
    (ho : o < env.nObj) (hu : d.s.node.hw.used o = false)
    (hhw : d'.s.node.hw = defHw d.s.node.hw o (dfs d b tp (if b then jt else jr)))
    (hsl : d'.s.node.slots = d.s.node.slots ++ [(o, tp)])
    (ht : ∀ i < jt, (d'.x tp).obj i = (d.x tp).obj i)
    (hr : ∀ i < jr, (d'.s.node.rows tp).rxMsgObj i = (d.s.node.rows tp).rxMsgObj i)
    (he : obs d' b tp (if b then jt else jr) = o) :
    Wires env d'.s.node.hw d'.s.node.slots (limj c0 tp (if b then jt + 1 else jt) (if b then jr else jr + 1)) (obs d') (dfs d') := by
  have hd : dfs d' = dfs d := by
    funext b t i
    by_cases e : t = tp
    · subst e; simp only [dfs, f.nr, f.txd, f.rxd]
    · simp only [dfs, f.rows t e]
  have lj : limj c0 tp jt jr b tp = (if b then jt else jr) := by simp [limj]
  rw [hhw, hsl]
  refine (h.new hn (b := b) ho hu (by unfold dfs; split <;> rfl) (ob' := obs d') (df' := dfs d') (fun b' t i hi => ?_)
    (fun b' t i _ => by rw [hd]) (by rw [lj]; exact he) (by rw [lj, hd])).congr (fun b' t => ?_) (fun _ _ _ _ => rfl) (fun _ _ _ _ => rfl)
  · by_cases e : t = tp
    · subst e
      cases b' with
      | true => simp only [obs, if_true]; exact ht i (by simpa [limj] using hi)
      | false => simp only [obs]; exact hr i (by simpa [limj] using hi)
    · simp only [obs, f.rows t e, f.x t e]
  · by_cases e : t = tp
    · subst e
      cases b <;> cases b' <;> simp [limj]
    · simp [limj, e]

theorem addSlot_ok {env : Env} {n : Node} {o tp : Nat} (h : (addSlot env n o tp).2 = E.ok) :
    (addSlot env n o tp).1 = { n with slots := n.slots ++ [(o, tp)] } := by
  unfold addSlot at h ⊢
  split at h
  · next e => rw [if_pos e]
  · cases h

theorem setTx1_wires {env : Env} (hh : ∀ k, env.hwOk k = true) (hn : env.nObj ≤ 32) (c0 : Cpu2) (tp nr j : Nat) {d : Cpu2}
    (h : Wires env d.s.node.hw d.s.node.slots (limj c0 tp j 0) (obs d) (dfs d)) (hnr : (d.s.node.rows tp).nr = nr)
    (hok : (setTx1 env tp nr j d).2 = E.ok) :
    Wires env (setTx1 env tp nr j d).1.s.node.hw (setTx1 env tp nr j d).1.s.node.slots (limj c0 tp (j + 1) 0)
      (obs (setTx1 env tp nr j d).1) (dfs (setTx1 env tp nr j d).1) ∧ Fill tp d (setTx1 env tp nr j d).1 := by
  unfold setTx1 at hok ⊢
  extract_lets n at hok ⊢
  have rt : ∀ t, t ≠ tp → n.rows t = d.s.node.rows t := fun t e => upd_other _ _ e
  have rp : n.rows tp = { d.s.node.rows tp with txDlcSync := upd (d.s.node.rows tp).txDlcSync j ((d.s.node.rows tp).txDlc j) } := upd_same ..
  have n1 : n.hw = d.s.node.hw := rfl
  have n2 : n.slots = d.s.node.slots := rfl
  have n3 : n.chg = d.s.node.chg := rfl
  clear_value n
  split at hok
  · cases hok
  · next o hf =>
    obtain ⟨ho1, ho2⟩ := nextFree_some hf
    rw [define_hw hh _ ho1] at hok ⊢
    simp only [thenOk, if_true] at hok ⊢
    rw [addSlot_ok hok]
    have hdf : (⟨syncTxId nr j, 0x7FF#16, (n.rows tp).txDlc j, .rx true⟩ : ObjDef) = dfs d true tp j := by
      simp [dfs, rp, hnr]
    rw [hdf]
    have hfill : Fill tp d ((d.setX tp fun x => { x with obj := upd x.obj j o }).setNode
        { n with hw := defHw n.hw o (dfs d true tp j), slots := n.slots ++ [(o, tp)] }) := by
      refine ⟨rt, fun t e => upd_other _ _ e, ?_, ?_, ?_, ?_, ?_, ?_, n3⟩
      all_goals (simp only [setNode]; rw [rp])
    refine ⟨newport hn c0 tp j 0 true h hfill ho1 (by rw [← n1]; exact ho2) (by rw [← n1]; rfl) (by rw [← n2]; rfl)
      (fun i hi => ?_) (fun i hi => absurd hi (by omega)) ?_, hfill⟩
    · show ((upd d.x tp _) tp).obj i = _
      rw [upd_same]
      exact upd_other _ _ (by omega)
    · show ((upd d.x tp _) tp).obj j = o
      rw [upd_same]
      exact upd_same ..

theorem setRx1_wires {env : Env} (hh : ∀ k, env.hwOk k = true) (hn : env.nObj ≤ 32) (c0 : Cpu2) (tp nr k j : Nat) {d : Cpu2}
    (h : Wires env d.s.node.hw d.s.node.slots (limj c0 tp k j) (obs d) (dfs d)) (hnr : (d.s.node.rows tp).nr = nr)
    (hok : (setRx1 env tp nr j d.s.node).2 = E.ok) :
    Wires env (setRx1 env tp nr j d.s.node).1.hw (setRx1 env tp nr j d.s.node).1.slots (limj c0 tp k (j + 1))
      (obs (d.setNode (setRx1 env tp nr j d.s.node).1)) (dfs (d.setNode (setRx1 env tp nr j d.s.node).1)) ∧
    Fill tp d (d.setNode (setRx1 env tp nr j d.s.node).1) := by
  unfold setRx1 at hok ⊢
  extract_lets n at hok ⊢
  have rt : ∀ t, t ≠ tp → n.rows t = d.s.node.rows t := fun t e => upd_other _ _ e
  have rp : n.rows tp = { d.s.node.rows tp with rxDlcSync := upd (d.s.node.rows tp).rxDlcSync j ((d.s.node.rows tp).rxDlc j) } := upd_same ..
  have n1 : n.hw = d.s.node.hw := rfl
  have n2 : n.slots = d.s.node.slots := rfl
  have n3 : n.chg = d.s.node.chg := rfl
  clear_value n
  split at hok
  · cases hok
  · next o hf =>
    obtain ⟨ho1, ho2⟩ := nextFree_some hf
    extract_lets m at hok ⊢
    have mt : ∀ t, t ≠ tp → m.rows t = d.s.node.rows t := fun t e => (upd_other _ _ e).trans (rt t e)
    have mp : m.rows tp = { n.rows tp with rxMsgObj := upd (n.rows tp).rxMsgObj j o } := upd_same ..
    have m1 : m.hw = n.hw := rfl
    have m2 : m.slots = n.slots := rfl
    have m3 : m.chg = n.chg := rfl
    clear_value m
    rw [define_hw hh _ ho1] at hok ⊢
    simp only [thenOk, if_true] at hok ⊢
    rw [addSlot_ok hok]
    have hdf : (⟨syncRxId nr j, 0x7FF#16, (m.rows tp).rxDlc j, .rx true⟩ : ObjDef) = dfs d false tp j := by
      simp [dfs, mp, rp, hnr]
    rw [hdf]
    have hfill : Fill tp d (d.setNode { m with hw := defHw m.hw o (dfs d false tp j), slots := m.slots ++ [(o, tp)] }) := by
      refine ⟨mt, fun t e => rfl, ?_, ?_, ?_, ?_, ?_, ?_, m3.trans n3⟩
      all_goals (simp only [setNode]; rw [mp, rp])
    refine ⟨newport hn c0 tp k j false h hfill ho1 (by rw [← n1]; exact ho2) (by rw [← n1, ← m1]; rfl) (by rw [← n2, ← m2]; rfl)
      (fun i hi => rfl) (fun i hi => ?_) ?_, hfill⟩
    · show (m.rows tp).rxMsgObj i = _
      rw [mp]
      show upd (n.rows tp).rxMsgObj j o i = _
      rw [upd_other _ _ (by omega), rp]
    · show (m.rows tp).rxMsgObj j = o
      rw [mp]
      exact upd_same ..

/-- the end of `can_config_set_module` -/
def tail (env : Env) (tp nr : Nat) (c : Cpu2) : Cpu2 × Err :=
  let r := c.finish env tp c.s.node.nrMod nr ((List.range (tp + 1)).map fun i => (c.s.node.rows i).nr)
  (r.1.setNode { r.1.s.node with nrMod := r.1.s.node.nrMod + 1 }, r.2)

theorem setModule_tail (env : Env) (c : Cpu2) (tp : Nat) (tpl : Row) (tx2 : Cpu2Row) (nr : Nat) (rx tx : Nat → Nat) :
    c.setModule env tp tpl tx2 nr rx tx =
      andThen (((c.setX tp fun _ => tx2).setNode (c.s.node.fillRow tp tpl (effNr tp nr) rx tx)).setTx env tp (effNr tp nr)) fun c =>
      andThen (c.onNode (setRx env · tp (effNr tp nr))) (tail env tp (effNr tp nr)) := by
  simp only [setModule, tail]
  rfl

theorem tail_rig {env : Env} (hh : ∀ k, env.hwOk k = true) (h10 : 10 < env.nObj) {S : Nat → Prop} {c : Cpu2}
    (h : Rig env S c) (tp nr : Nat) (h1 : 1 ≤ nr) (h2 : nr ≤ 256) (hok : (tail env tp nr c).2 = E.ok) :
    Rig env (fun t => S t ∨ t = tp) (tail env tp nr c).1 := by
  unfold tail at hok ⊢
  dsimp only at hok ⊢
  have R := (finish_rig hh h10 h tp c.s.node.nrMod nr ((List.range (tp + 1)).map fun i => (c.s.node.rows i).nr) h1 h2).2
  generalize c.finish env tp c.s.node.nrMod nr ((List.range (tp + 1)).map fun i => (c.s.node.rows i).nr) = d at R hok ⊢
  exact (R hok).keep rfl rfl rfl rfl rfl

theorem setModule_rig {env : Env} (hh : ∀ k, env.hwOk k = true) (h10 : 10 < env.nObj) (hn : env.nObj ≤ 32) {S : Nat → Prop} {c : Cpu2}
    (h : Rig env S c) (tp : Nat) (tpl : Row) (tx2 : Cpu2Row) (nr : Nat) (rx tx : Nat → Nat)
    (hf : (c.s.node.rows tp).typ = []) (ht : tpl.typ ≠ []) (h4 : tpl.txObj ≤ 4 ∧ tpl.rxObj ≤ 4) (htp : tp ≤ 131) (hlt : tp < env.maxMod)
    (hok : (c.setModule env tp tpl tx2 nr rx tx).2 = E.ok) :
    Rig env (fun t => S t ∨ t = tp) (c.setModule env tp tpl tx2 nr rx tx).1 := by
  rw [setModule_tail] at hok ⊢
  have hnr : 1 ≤ effNr tp nr ∧ effNr tp nr ≤ 256 := by
    unfold effNr u16; split <;> omega
  generalize effNr tp nr = nr' at hok hnr ⊢
  generalize hc1 : (c.setX tp fun _ => tx2).setNode (c.s.node.fillRow tp tpl nr' rx tx) = c1 at hok ⊢
  have r1 : c1.s.node.rows = upd c.s.node.rows tp { tpl with nr := nr', rx := rx, tx := tx, txObjSync := tpl.txObj } := by
    rw [← hc1]; rfl
  have x1 : ∀ t, t ≠ tp → c1.x t = c.x t := fun t e => by rw [← hc1]; exact upd_other _ _ e
  have w1 : c1.s.node.hw = c.s.node.hw := by rw [← hc1]; rfl
  have s1 : c1.s.node.slots = c.s.node.slots := by rw [← hc1]; rfl
  have g1 : c1.s.node.chg = c.s.node.chg := by rw [← hc1]; rfl
  clear hc1
  have hz := h.free tp hf
  have q0 : Wires env c1.s.node.hw c1.s.node.slots (limj c tp 0 0) (obs c1) (dfs c1) := by
    rw [w1, s1]
    refine h.w.congr (fun b t => ?_) (fun b t i hi => ?_) (fun b t i hi => ?_)
    · unfold limj
      by_cases e : t = tp
      · subst e; cases b <;> simp [lims, hz.1, hz.2]
      · rw [if_neg e]
    · by_cases e : t = tp
      · subst e; cases b <;> simp [lims, hz.1, hz.2] at hi
      · simp only [obs, r1, upd_other _ _ e, x1 t e]
    · by_cases e : t = tp
      · subst e; cases b <;> simp [lims, hz.1, hz.2] at hi
      · simp only [dfs, r1, upd_other _ _ e]
  obtain ⟨a1, a2, a3⟩ := andThen_snd hok
  rw [a2]
  obtain ⟨b1, b2, b3⟩ := andThen_snd a3
  rw [b2]
  unfold setTx at a1 b1 b3 ⊢
  have p1 := loop_all (f := setTx1 env tp nr') (fun j d => Fill tp c1 d ∧
      Wires env d.s.node.hw d.s.node.slots (limj c tp j 0) (obs d) (dfs d)) (c1.s.node.rows tp).txObj (by
    intro j hj d ⟨df, dw⟩ e
    obtain ⟨k1, k2⟩ := setTx1_wires hh hn c tp nr' j dw (by rw [df.nr, r1, upd_same]) e
    exact ⟨df.trans k2, k1⟩) c1 ⟨.refl _ _, q0⟩ a1
  generalize (loop (setTx1 env tp nr') (List.range (c1.s.node.rows tp).txObj) c1).1 = d at p1 b1 b3 ⊢
  obtain ⟨df, dw⟩ := p1
  have eo : d.onNode (setRx env · tp nr') = (d.setNode (setRx env d.s.node tp nr').1, (setRx env d.s.node tp nr').2) := rfl
  rw [eo] at b1 b3 ⊢
  dsimp only at b1 b3 ⊢
  unfold setRx at b1 b3 ⊢
  extract_lets n0 at b1 b3 ⊢
  have m1 : n0.rows = upd d.s.node.rows tp { d.s.node.rows tp with rxObjSync := (d.s.node.rows tp).rxObj } := rfl
  have m2 : n0.hw = d.s.node.hw := rfl
  have m3 : n0.slots = d.s.node.slots := rfl
  have m4 : n0.chg = d.s.node.chg := rfl
  clear_value n0
  have f0 : Fill tp d (d.setNode n0) := by
    refine ⟨fun t e => ?_, fun t e => rfl, ?_, ?_, ?_, ?_, ?_, ?_, m4⟩
    · show n0.rows t = _
      rw [m1, upd_other _ _ e]
    all_goals (simp only [setNode]; rw [m1, upd_same])
  have w0 : Wires env n0.hw n0.slots (limj c tp (c1.s.node.rows tp).txObj 0) (obs (d.setNode n0)) (dfs (d.setNode n0)) := by
    rw [m2, m3]
    refine dw.congr (fun _ _ => rfl) (fun b t i _ => ?_) (fun b t i _ => ?_)
    · simp only [obs, setNode, m1]
      by_cases e : t = tp
      · subst e; simp only [upd_same]
      · simp only [upd_other _ _ e]
    · simp only [dfs, setNode, m1]
      by_cases e : t = tp
      · subst e; simp only [upd_same]
      · simp only [upd_other _ _ e]
  have p2 := (forErr_all (f := setRx1 env tp nr') (fun j n => Fill tp c1 (d.setNode n) ∧
      Wires env n.hw n.slots (limj c tp (c1.s.node.rows tp).txObj j) (obs (d.setNode n)) (dfs (d.setNode n))) (fun _ => True)
      (n0.rows tp).rxObj (by
    intro j hj n ⟨nf, nw⟩
    refine ⟨fun e => ?_, trivial⟩
    obtain ⟨k1, k2⟩ := setRx1_wires (d := d.setNode n) hh hn c tp nr' _ j nw (by rw [nf.nr, r1, upd_same]) e
    exact ⟨nf.trans k2, k1⟩) (fun _ _ => trivial) n0 ⟨df.trans f0, w0⟩).2 b1
  generalize (forErr (setRx1 env tp nr') (List.range (n0.rows tp).rxObj) n0).1 = n at p2 b3 ⊢
  obtain ⟨nf, nw⟩ := p2
  have hro : (n0.rows tp).rxObj = (c1.s.node.rows tp).rxObj := (df.trans f0).rxo
  have R : Rig env (fun t => S t ∧ t ≠ tp) (d.setNode n) := by
    have other : ∀ t, t ≠ tp → (d.setNode n).s.node.rows t = c.s.node.rows t := fun t e => by
      rw [nf.rows t e, r1, upd_other _ _ e]
    refine ⟨nw.congr (fun b t => ?_) (fun _ _ _ _ => rfl) (fun _ _ _ _ => rfl), fun t => ?_, fun t e => ?_, fun t ⟨s, e⟩ => ?_, fun t => ?_, fun t e => ?_⟩
    · unfold limj
      by_cases e : t = tp
      · subst e
        rw [if_pos rfl]
        unfold lims
        rw [nf.txo, nf.rxo, hro]
      · rw [if_neg e]
        unfold lims
        rw [other t e]
    · by_cases e : t = tp
      · subst e; rw [nf.txo, nf.rxo, r1, upd_same]; exact h4
      · rw [other t e]; exact h.max t
    · by_cases e' : t = tp
      · subst e'; rw [nf.typ, r1, upd_same] at e; exact absurd e ht
      · rw [other t e'] at e ⊢; exact h.free t e
    · rw [other t e, nf.x t e, x1 t e]; exact h.sw t s
    · rw [nf.chg, g1]; exact h.chg t
    · rw [other t (by omega)]; exact h.big t e
  refine (tail_rig hh h10 R tp nr' hnr.1 hnr.2 b3).weaken (fun t ht => ?_)
  by_cases e : t = tp
  · exact .inr e
  · exact .inl ⟨ht.resolve_right e, e⟩

end Cpu2
end LiCan
