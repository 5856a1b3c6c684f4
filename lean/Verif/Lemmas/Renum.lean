import Verif.Lemmas.NodeHist
import Verif.Spec.Renumber
/-! # The table specification through number changes -/
namespace LiCan
open Spec
namespace Node

theorem SimQ.weaken {env : Env} {n : Node} {t : Table} (h : SimQ Q env n t) : SimQ False env n t := by
  refine ⟨h.len, h.awake, fun i m hm => ?_, h.free, h.bits⟩
  obtain ⟨a, b, c, d, e, e', f, g, h, i', j, k, l, l', l''⟩ := h.row i m hm
  exact ⟨a, b, c, d, e, e', f, g, h, i', j, k, fun h => h.elim, fun h => h.elim, fun h => h.elim⟩

/-- new identifiers of the transmit objects of a registered row -/
theorem SimQ.renumbered {env : Env} {n n' : Node} {t : Table} (h : SimQ False env n t) (h8 : env.maxMod ≤ 8)
    {tp : Nat} {m0 : Mod} (hm0 : t.mods[tp]? = some m0) (nr : Nat)
    (hrow : n'.rows = upd n.rows tp { n.rows tp with nr := nr }) (hsil : n'.silent = n.silent)
    (htx : n'.tx = cnfgTx n.tx (n.rows tp).txDlc tp nr (n.rows tp).txObj) :
    SimQ False env n' ⟨t.mods.modify tp fun m =>
      { m with nr := nr, on := true }, t.awake⟩ := by
  have hl : tp < t.mods.length := (List.getElem?_eq_some_iff.1 hm0).1
  have h8' : tp < 8 := by have := h.len; omega
  have r0 := h.row tp m0 hm0
  refine ⟨by simpa using h.len, by rw [hsil, h.awake], ?_, ?_, ?_⟩
  · intro i m hm
    simp only [List.getElem?_modify] at hm
    by_cases hi : tp = i
    · subst hi
      rw [hm0] at hm
      simp only [if_true, Option.map_eq_map, Option.map_some, Option.some.injEq] at hm
      subst hm
      refine ⟨?_, r0.ne, ?_, ?_, r0.tx4, ?_, ?_, ?_, ?_, ?_, ?_, ?_, fun h => h.elim, fun h => h.elim, fun h => h.elim⟩ <;>
        (first | rw [hrow] | rw [htx] | skip) <;> (try simp only [upd_same])
      · exact r0.typ
      · exact r0.txObj
      · exact r0.rx4
      · exact r0.txDlc
      · exact r0.tx
      · exact r0.main
      · exact r0.conv
      · intro o ho
        have ho' : o < (n.rows tp).txObj := by rw [r0.txObj]; exact ho
        simp [cnfgTx_id, ho']
      · intro o ho
        have ho' : o < (n.rows tp).txObj := by rw [r0.txObj]; exact ho
        simp [cnfgTx_dlc, ho', r0.txDlc]
    · simp only [hi, if_false, Option.map_eq_map, Option.map_id_fun', id_eq] at hm
      have ro := h.row i m hm
      have hi' : i ≠ tp := fun e => hi e.symm
      have hrw : n'.rows i = n.rows i := by rw [hrow, upd_other _ _ hi']
      obtain ⟨a, b, c, d, e, e', f, g, h, i', j, k, l, l', l''⟩ := ro
      refine ⟨by rw [hrw]; exact a, b, by rw [hrw]; exact c, by rw [hrw]; exact d, e,
        by rw [hrw]; exact e', by rw [hrw]; exact f, by rw [hrw]; exact g, by rw [hrw]; exact h,
        by rw [hrw]; exact i', ?_, ?_, fun h => h.elim, fun h => h.elim, fun h => h.elim⟩
      · intro o ho; rw [htx, cnfgTx_id]; simp only [hi', false_and, if_false]; exact j o ho
      · intro o ho; rw [htx, cnfgTx_dlc]; simp only [hi', false_and, if_false]; exact k o ho
  · intro i hi
    simp only [List.length_modify] at hi
    rw [hrow, upd_other _ _ (by omega)]
    exact h.free i hi
  · intro p
    have t4 : (n.rows tp).txObj ≤ 4 := by rw [r0.txObj]; exact r0.tx4
    rw [htx, cnfgTx_reg, setBits_bit _ _ _ _ t4 h8']
    simp only [Bool.or_eq_true, h.bits, decide_eq_true_eq, List.getElem?_modify]
    constructor
    · rintro (⟨m, hm, hon, hp⟩ | ⟨ha, hb⟩)
      · by_cases e : tp = p / 4
        · exact ⟨{ m with nr := nr, on := true }, by
            rw [hm]; simp [e], rfl, hp⟩
        · exact ⟨m, by rw [hm]; simp [e], hon, hp⟩
      · have e : tp = p / 4 := by omega
        rw [← e, hm0]
        exact ⟨{ m0 with nr := nr, on := true }, by simp, rfl, by show p % 4 < m0.txObj; rw [← r0.txObj]; omega⟩
    · rintro ⟨m, hm, hon, hp⟩
      by_cases e : tp = p / 4
      · right
        rw [← e, hm0] at hm
        simp only [if_true, Option.map_eq_map, Option.map_some, Option.some.injEq] at hm
        subst hm
        have : p % 4 < m0.txObj := hp
        rw [← r0.txObj] at this
        omega
      · left
        simp only [e, if_false, Option.map_eq_map, Option.map_id_fun', id_eq] at hm
        exact ⟨m, hm, hon, hp⟩

/-- the receive objects: only message objects change -/
theorem renumRx_hwOnly (env : Env) (n : Node) (tp nr : Nat) : HwOnly n (renumRx env n tp nr).1 := by
  unfold renumRx
  generalize List.range (n.rows tp).rxObj = l
  induction l generalizing n with
  | nil => exact .refl n
  | cons i l ih =>
    exact (define_hwOnly ..).thenOk fun n' => ih n'

theorem SimQ.hwOnly {env : Env} {n n' : Node} {t : Table} (h : SimQ Q env n t) (hh : HwOnly n n') : SimQ Q env n' t := by
  obtain ⟨hw, u, c, s, rfl⟩ := hh
  exact h.congr rfl rfl rfl

theorem setSilentAwake_last (env : Env) (n : Node) (tp st : Nat) :
    (setSilentAwake env n tp st).1.tx.last = n.tx.last := by
  simp only [setSilentAwake]
  split
  · split
    · obtain ⟨_, _, e⟩ := syncOff_eq env
        { n with silent := upd n.silent tp st, log := .silentCb tp (n.rows tp).nr st :: n.log } tp
      rw [e]
    · split
      · rw [syncOn_eq]
      · rfl
  · rfl

theorem modify_ge {α : Type _} (l : List α) (tp : Nat) (f : α → α) (h : l.length ≤ tp) : l.modify tp f = l := by
  apply List.ext_getElem?
  intro i
  rw [List.getElem?_modify]
  by_cases e : tp = i
  · subst e; rw [List.getElem?_eq_none h]; rfl
  · simp [e]

/-- the type changes announced and the number of modules counted stay -/
structure Rest (n n' : Node) : Prop where
  chg : n'.chg = n.chg
  nrMod : n'.nrMod = n.nrMod

theorem Rest.refl (n : Node) : Rest n n := ⟨rfl, rfl⟩
theorem Rest.trans {a b c : Node} (h : Rest a b) (h' : Rest b c) : Rest a c := ⟨h'.chg.trans h.chg, h'.nrMod.trans h.nrMod⟩
theorem Rest.hw {n n' : Node} (h : HwOnly n n') : Rest n n' := by obtain ⟨_, _, _, _, rfl⟩ := h; exact ⟨rfl, rfl⟩
theorem Rest.same {n n' : Node} (h : SameHw n n') : Rest n n' := ⟨h.chg, h.nrMod⟩

/-- the state after the lookup of a number change -/
theorem SimQ.changeAt {env : Env} {n : Node} {t : Table} (h : SimQ False env n t) (h8 : env.maxMod ≤ 8)
    (tp nr : Nat) (htp : tp < env.maxMod) :
    let n1 := n.setRow tp fun r => { r with nr := nr }
    let r := thenOk (renumTx env n1 tp nr) fun n =>
      thenOk (renumRx env n tp nr) fun n =>
        finish env n tp tp nr ((List.range n.nrMod).map fun i => (n.rows i).nr)
    SimQ False env r.1 (Spec.renumberAt t tp nr (decide (r.2 = E.ok))) ∧
      r.1.tx.last = endAt tp (n.rows tp).txObj n.tx.last ∧ Rest n r.1 := by
  intro n1 r
  have t4 : (n1.rows tp).txObj ≤ 4 := by
    simp only [n1, setRow, upd_same]
    by_cases hl : tp < t.mods.length
    · have r := h.row tp t.mods[tp] (by simp [hl])
      rw [r.txObj]; exact r.tx4
    · rw [(h.free tp (by omega)).2.1]; omega
  have hr : r = thenOk (renumTx env n1 tp nr) _ := rfl
  rw [renumTx_eq env n1 tp nr htp t4, thenOk_ok] at hr
  generalize hn2 : ({ n1 with tx := cnfgTx n1.tx (n1.rows tp).txDlc tp nr (n1.rows tp).txObj } : Node) = n2 at hr
  have hlast : n2.tx.last = endAt tp (n.rows tp).txObj n.tx.last := by
    rw [← hn2]
    simp only [n1, setRow, upd_same, cnfgTx_last, endAt]
  have hrest : Rest n n2 := by rw [← hn2]; exact ⟨rfl, rfl⟩
  generalize hl1 : (t.mods.modify tp fun m =>
      ({ m with nr := nr, on := true } : Mod)) = l1
  have s2 : SimQ False env n2 ⟨l1, t.awake⟩ := by
    rw [← hl1]
    by_cases hl : tp < t.mods.length
    · refine h.renumbered h8 (m0 := t.mods[tp]) (by simp [hl]) nr ?_ ?_ ?_
      · rw [← hn2]; rfl
      · rw [← hn2]; rfl
      · rw [← hn2]; simp only [n1, setRow, upd_same]
    · have f := h.free tp (by omega)
      rw [modify_ge _ _ _ (by omega)]
      have e1 : n2.tx = n.tx := by
        rw [← hn2]; simp only [n1, setRow, upd_same, f.2.1, cnfgTx]
      refine ⟨h.len, by rw [← hn2]; exact h.awake, fun i m hm => ?_, fun i hi => ?_, by rw [e1]; exact h.bits⟩
      · have hne : i ≠ tp := by
          have : i < t.mods.length := (List.getElem?_eq_some_iff.1 hm).1
          omega
        have hrw : n2.rows i = n.rows i := by
          rw [← hn2]; simp only [n1, setRow]; rw [upd_other _ _ hne]
        obtain ⟨a, b, c, d, e, e', f, g, h, i', j, k, l, l', l''⟩ := h.row i m hm
        exact ⟨by rw [hrw]; exact a, b, by rw [hrw]; exact c, by rw [hrw]; exact d, e,
          by rw [hrw]; exact e', by rw [hrw]; exact f, by rw [hrw]; exact g, by rw [hrw]; exact h,
          by rw [hrw]; exact i', by rw [e1]; exact j, by rw [e1]; exact k, fun h => h.elim, fun h => h.elim,
          fun h => h.elim⟩
      · by_cases hit : i = tp
        · subst hit
          rw [← hn2]; simp only [n1, setRow, upd_same]
          exact f
        · have hrw : n2.rows i = n.rows i := by
            rw [← hn2]; simp only [n1, setRow]; rw [upd_other _ _ hit]
          rw [hrw]; exact h.free i hi
  clear_value n1
  clear hn2
  have hrx := renumRx_hwOnly env n2 tp nr
  generalize renumRx env n2 tp nr = q at hr hrx
  obtain ⟨n3, e3⟩ := q
  simp only at hrx
  have s3 := s2.hwOnly hrx
  have l3 : n3.tx.last = n2.tx.last := by obtain ⟨_, _, _, _, rfl⟩ := hrx; rfl
  have raw : ∀ e : Err, e ≠ E.ok → Spec.renumberAt t tp nr (decide (e = E.ok)) = ⟨l1, t.awake⟩ := by
    intro e he
    simp only [Spec.renumberAt, hl1, he, decide_false, Bool.false_eq_true, if_false]
  by_cases he3 : e3 = E.ok
  · subst he3
    rw [thenOk_ok, finish_eq] at hr
    generalize ((List.range n3.nrMod).map fun i => (n3.rows i).nr) = nrs at hr
    have hfh := finishHw_hwOnly env n3 tp nr nrs
    generalize finishHw env n3 tp nr nrs = q at hr hfh
    obtain ⟨n4, e4⟩ := q
    simp only at hfh
    have s4 := s3.hwOnly hfh
    have l4 : n4.tx.last = n3.tx.last := by obtain ⟨_, _, _, _, rfl⟩ := hfh; rfl
    by_cases he4 : e4 = E.ok
    · subst he4
      rw [thenOk_ok] at hr
      have s5 := s4.silentAwake h8 tp (n4.silent tp) true
      have l5 := setSilentAwake_last env n4 tp (n4.silent tp)
      rw [hr]
      refine ⟨?_, by rw [l5, l4, l3, hlast],
        ((hrest.trans (.hw hrx)).trans (.hw hfh)).trans (.same (setSilentAwake_sameHw env n4 tp _))⟩
      have haw : n4.silent = t.awake := s4.awake
      have hself : upd t.awake tp (t.awake tp) = t.awake := upd_self _ _
      rw [s5.2]
      have s6 := s5.1
      clear s5 l5 hr
      simp only [Table.step, show ¬ env.maxMod ≤ tp from by omega, if_false, haw] at s6 ⊢
      by_cases h0 : t.awake tp = 0
      · simp only [h0, if_true] at s6 ⊢
        rw [← h0, hself] at s6
        simpa [Spec.renumberAt, hl1, h0] using s6
      · by_cases h1 : t.awake tp = 1
        · simp only [h1, if_true, Nat.one_ne_zero, if_false] at s6 ⊢
          rw [← h1, hself] at s6
          simpa [Spec.renumberAt, hl1, h1] using s6
        · simp only [h0, h1, if_false] at s6 ⊢
          rw [hself] at s6
          rw [raw _ (by decide)]
          exact s6
    · rw [thenOk, if_neg he4] at hr
      rw [hr]
      refine ⟨?_, by rw [l4, l3, hlast], (hrest.trans (.hw hrx)).trans (.hw hfh)⟩
      rw [raw _ he4]; exact s4
  · rw [thenOk, if_neg he3] at hr
    rw [hr]
    refine ⟨?_, by rw [l3, hlast], hrest.trans (.hw hrx)⟩
    rw [raw _ he3]; exact s3

/-! ## every call -/

/-- the table, the place taken for the end of the send list, the announced types -/
structure SimL (env : Env) (n : Node) (s : SendList) : Prop where
  sim : SimQ False env n s.tab
  last : n.tx.last = s.last
  cnt : n.nrMod ≤ s.tab.mods.length
  alt : ∀ i, (n.chg i).map ChgType.row = s.alt i
  altOk : ∀ i c, s.alt i = some c → i < s.tab.mods.length ∧ c.typ ≠ [] ∧ c.txObj ≤ 4 ∧ c.rxObj ≤ 4

/-- new state with the same announcements -/
theorem SimL.next {env : Env} {n n' : Node} {s s' : SendList} (h : SimL env n s) (hs : SimQ False env n' s'.tab)
    (hl : n'.tx.last = s'.last) (hr : Rest n n') (ha : s'.alt = s.alt) (hm : s.tab.mods.length ≤ s'.tab.mods.length) :
    SimL env n' s' :=
  ⟨hs, hl, by rw [hr.nrMod]; exact Nat.le_trans h.cnt hm, fun i => by rw [hr.chg, ha]; exact h.alt i,
   fun i c hc => by
    rw [ha] at hc
    have := h.altOk i c hc
    exact ⟨by omega, this.2⟩⟩

/-- was a registration or number change (if the call is one) completed? -/
def doneOk (env : Env) (n : Node) : Op → Bool
  | .add tpl nr rx tx => decide (regErr env n tpl nr rx tx = E.ok)
  | .changeNr typ nr act => decide ((changeNr env n typ nr act).2 = E.ok)
  | .changeModuleNr tp nr => decide ((changeModuleNr env n tp nr).2 = E.ok)
  | _ => true

/-- A number change by the master names a registered row.  A type change is that of an awake module, and all
registrations so far have been counted (those which failed half-way are not). -/
def Named (n : Node) : Op → Prop
  | .changeModuleNr tp _ => (n.rows tp).typ ≠ []
  | .changeType tp _ => (n.chg tp).isSome → n.silent tp = 1 ∧ ∀ i, (n.rows i).typ ≠ [] → i < n.nrMod
  | _ => True

/-- the specification following a history of the code (told which calls could be completed) -/
def listRun (env : Env) : Node → SendList → List Op → SendList
  | _, s, [] => s
  | n, s, o :: os => listRun env (Node.step env n o).1 (s.step env.maxMod env.voter (doneOk env n o) o) os

/-- all number changes by the master in a history name registered rows -/
def AllNamed (env : Env) : Node → List Op → Prop
  | _, [] => True
  | n, o :: os => Named n o ∧ AllNamed env (Node.step env n o).1 os

theorem SimL.changeNr {env : Env} {n : Node} {s : SendList} (h : SimL env n s) (h8 : env.maxMod ≤ 8)
    (typ : List Byte) (nr act : Nat) :
    SimL env (Node.changeNr env n typ nr act).1
      (s.renumber typ nr act (decide ((Node.changeNr env n typ nr act).2 = E.ok))) := by
  have hl := h.sim.len
  cases hf : n.findTypeNr env typ act with
  | none =>
    have hno : (s.tab.mods.findIdx? fun m => m.typ = typ ∧ m.nr = act) = none := by
      rw [List.findIdx?_eq_none_iff]
      intro m hm
      obtain ⟨i, hi, rfl⟩ := List.mem_iff_getElem.1 hm
      have r := h.sim.row i s.tab.mods[i] (by simp [hi])
      simp only [findTypeNr, List.find?_eq_none] at hf
      have := hf i (by simp; omega)
      simpa [r.typ, r.nr] using this
    simp only [Node.changeNr, hf, SendList.renumber, hno]
    exact h.next (h.sim.congr rfl rfl rfl) h.last ⟨rfl, rfl⟩ rfl (Nat.le_refl _)
  | some tp =>
    simp only [findTypeNr, List.find?_range_eq_some] at hf
    obtain ⟨hq, htp, hfirst⟩ := hf
    simp only [List.mem_range] at htp
    have key := h.sim.changeAt h8 tp nr htp
    have hf' : n.findTypeNr env typ act = some tp := by
      simp only [findTypeNr, List.find?_range_eq_some]
      exact ⟨hq, by simpa using htp, hfirst⟩
    simp only [Node.changeNr, hf']
    simp only at key
    generalize thenOk (renumTx env (n.setRow tp fun r => { r with nr := nr }) tp nr) _ = r at key ⊢
    obtain ⟨k1, k2, k3⟩ := key
    simp only [decide_eq_true_eq] at hq
    by_cases hlen : tp < s.tab.mods.length
    · have hyes : (s.tab.mods.findIdx? fun m => m.typ = typ ∧ m.nr = act) = some tp := by
        rw [List.findIdx?_eq_some_iff_getElem]
        have ro := h.sim.row tp s.tab.mods[tp] (by simp [hlen])
        refine ⟨hlen, by rw [← ro.typ, ← ro.nr]; simpa using hq, ?_⟩
        intro j hj
        have rj := h.sim.row j (s.tab.mods[j]'(by omega)) (by simp)
        rw [← rj.typ, ← rj.nr]
        have q := hfirst j hj
        simp only [Bool.not_eq_true', decide_eq_false_iff_not, Bool.not_eq_true] at q ⊢
        exact q
      have ro := h.sim.row tp s.tab.mods[tp] (by simp [hlen])
      simp only [SendList.renumber, hyes]
      refine h.next k1 ?_ k3 rfl ?_
      · rw [k2, h.last, ro.txObj]
        simp [hlen]
      · simp only [Spec.renumberAt]
        split <;> simp [switch_length]
    · have f := h.sim.free tp (by omega)
      have hno : (s.tab.mods.findIdx? fun m => m.typ = typ ∧ m.nr = act) = none := by
        rw [List.findIdx?_eq_none_iff]
        intro m hm
        obtain ⟨i, hi, rfl⟩ := List.mem_iff_getElem.1 hm
        have r := h.sim.row i s.tab.mods[i] (by simp [hi])
        have := r.ne
        have hty : typ = [] := by rw [← hq.1]; exact f.1
        rw [hty]
        simp [this]
      have same : ∀ b, Spec.renumberAt s.tab tp nr b = s.tab := by
        intro b
        simp only [Spec.renumberAt, modify_ge _ _ _ (show s.tab.mods.length ≤ tp by omega), switch, ite_self]
      simp only [SendList.renumber, hno]
      rw [same] at k1
      refine h.next k1 ?_ k3 rfl (Nat.le_refl _)
      rw [k2, f.2.1, h.last]; rfl

theorem setModule_last {env : Env} {n : Node} (tp : Nat) (htp : tp < env.maxMod) (tpl : Row) (nr : Nat) (rx tx : Nat → Nat)
    (ht4 : tpl.txObj ≤ 4) : (setModule env n tp tpl nr rx tx).1.tx.last = endAt tp tpl.txObj n.tx.last ∧
    (setModule env n tp tpl nr rx tx).1.chg = n.chg ∧ (setModule env n tp tpl nr rx tx).1.nrMod ≤ n.nrMod + 1 := by
  have h4 : ((n.fillRow tp tpl (effNr tp nr) rx tx).rows tp).txObj ≤ 4 := by simpa [fillRow, setRow] using ht4
  have h0 : ((n.fillRow tp tpl (effNr tp nr) rx tx).rows tp).txObj = tpl.txObj := by simp [fillRow, setRow]
  have h1 : (n.fillRow tp tpl (effNr tp nr) rx tx).tx = n.tx := rfl
  simp only [setModule]
  rw [setTx_eq env _ _ _ htp h4, thenOk_ok, h0, h1]
  generalize hn1 : ({ n.fillRow tp tpl (effNr tp nr) rx tx with rows := _, tx := _ } : Node) = n1
  have l1 : n1.tx.last = endAt tp tpl.txObj n.tx.last := by
    rw [← hn1]; simp only [cnfgTx_last, endAt]
  have q1 : Rest n n1 := by rw [← hn1]; exact ⟨rfl, rfl⟩
  have hrx := setRx_rxOnly env n1 tp (effNr tp nr)
  generalize setRx env n1 tp (effNr tp nr) = q at hrx ⊢
  obtain ⟨n2, e2⟩ := q
  have l2 : n2.tx.last = n1.tx.last := by obtain ⟨_, _, _, _, _, _, e⟩ := hrx; simp only at e; rw [e]; rfl
  have q2 : Rest n n2 := q1.trans (by obtain ⟨_, _, _, _, _, _, e⟩ := hrx; simp only at e; rw [e]; exact ⟨rfl, rfl⟩)
  unfold thenOk
  split
  · dsimp only
    rw [finish_eq]
    have hfh := finishHw_hwOnly env n2 n2.nrMod (effNr tp nr) ((List.range (tp + 1)).map fun i => (n2.rows i).nr)
    generalize finishHw env n2 n2.nrMod (effNr tp nr) ((List.range (tp + 1)).map fun i => (n2.rows i).nr) = q3 at hfh ⊢
    obtain ⟨n3, e3⟩ := q3
    have l3 : n3.tx.last = n2.tx.last := by obtain ⟨_, _, _, _, e⟩ := hfh; simp only at e; rw [e]
    have q3 : Rest n n3 := q2.trans (.hw hfh)
    unfold thenOk
    split
    · dsimp only
      have q4 := q3.trans (.same (setSilentAwake_sameHw env n3 tp (n3.silent tp)))
      exact ⟨by rw [setSilentAwake_last, l3, l2, l1], q4.chg, by rw [q4.nrMod]; exact Nat.le_refl _⟩
    · dsimp only
      exact ⟨by rw [l3, l2, l1], q3.chg, by rw [q3.nrMod]; exact Nat.le_refl _⟩
  · dsimp only
    exact ⟨by rw [l2, l1], q2.chg, by rw [q2.nrMod]; omega⟩

theorem SimL.add {env : Env} {n : Node} {s : SendList} (h : SimL env n s) (h8 : env.maxMod ≤ 8)
    (tpl : Row) (nr : Nat) (rx tx : Nat → Nat) (hb : Basic (.add tpl nr rx tx)) :
    SimL env (addModule env n tpl nr rx tx).1
      (s.step env.maxMod env.voter (doneOk env n (.add tpl nr rx tx)) (.add tpl nr rx tx)) := by
  have hs := (h.sim.add h8 tpl nr rx tx hb).1
  have hl := h.sim.len
  by_cases hm : s.tab.mods.length = env.maxMod
  · have e : (addModule env n tpl nr rx tx).1 = n := by simp only [addModule, h.sim.freeRow, hm, if_true]
    rw [e] at hs ⊢
    have e2 : ∀ ok, s.tab.step env.maxMod ok (.add tpl nr rx tx) = (s.tab, E.maxModules) := by
      intro ok; simp only [Table.step, hm, if_true]
    refine h.next hs ?_ (.refl n) rfl ?_
    · simp only [SendList.step, hm, if_true]; exact h.last
    · simp only [SendList.step, e2]; exact Nat.le_refl _
  · have q : (addModule env n tpl nr rx tx).1.tx.last = endAt s.tab.mods.length tpl.txObj n.tx.last ∧
        (addModule env n tpl nr rx tx).1.chg = n.chg ∧ (addModule env n tpl nr rx tx).1.nrMod ≤ n.nrMod + 1 := by
      simp only [addModule, h.sim.freeRow, hm, if_false]
      have key := fun nr => setModule_last (env := env) (n := n) s.tab.mods.length (by omega) tpl nr (rx := rx) (tx := tx) (ht4 := hb.2.1)
      have rep : ∀ (m : Node) e, (report env m e).tx = m.tx ∧ (report env m e).chg = m.chg ∧ (report env m e).nrMod = m.nrMod := by
        intro m e
        have := report_sameHw env m e
        exact ⟨report_tx .., this.chg, this.nrMod⟩
      split
      · dsimp only
        rw [(rep _ _).1, (rep _ _).2.1, (rep _ _).2.2]; exact key _
      · dsimp only
        rw [(rep _ _).1, (rep _ _).2.1, (rep _ _).2.2]; exact key _
    have hlen : ∀ ok, (s.tab.step env.maxMod ok (.add tpl nr rx tx)).1.mods.length = s.tab.mods.length + 1 := by
      intro ok; simp [Table.step, hm]
    refine ⟨hs, ?_, ?_, fun i => by rw [q.2.1]; exact h.alt i, fun i c hc => ?_⟩
    · simp only [SendList.step, hm, if_false]; rw [q.1, h.last]
    · simp only [SendList.step, hlen]
      have := h.cnt
      have := q.2.2
      omega
    · have := h.altOk i c hc
      simp only [SendList.step, hlen]
      exact ⟨by omega, this.2⟩

theorem sendProcessData_tx (env : Env) (n : Node) :
    ((sendProcessData env n).getD n).tx = n.tx ∧ Rest n ((sendProcessData env n).getD n) := by
  cases hx : sendProcessData env n with
  | none => exact ⟨rfl, .refl n⟩
  | some n' =>
    exact sendRun_ind env (fun x => x.tx = n.tx ∧ Rest n x)
      (fun x tp obj buf hx => by
        obtain ⟨q, l, k, u, e⟩ := sendOne_eq env x tp obj buf
        rw [e]; exact ⟨hx.1, hx.2.chg, hx.2.nrMod⟩) 32 _ ⟨rfl, .refl n⟩ n' hx

theorem SimL.silentAwake {env : Env} {n : Node} {s : SendList} (h : SimL env n s) (h8 : env.maxMod ≤ 8)
    (tp st : Nat) (ok : Bool) :
    SimL env (setSilentAwake env n tp st).1 { s with tab := (s.tab.step env.maxMod ok (.silentAwake tp st)).1 } :=
  h.next (h.sim.silentAwake h8 tp st ok).1 (by rw [setSilentAwake_last]; exact h.last)
    (.same (setSilentAwake_sameHw env n tp st)) rfl (Nat.le_of_eq (step_length (by simp)).symm)

theorem SimL.changeModuleNr {env : Env} {n : Node} {s : SendList} (h : SimL env n s) (h8 : env.maxMod ≤ 8)
    (tp nr : Nat) (hn : (n.rows tp).typ ≠ []) :
    SimL env (Node.changeModuleNr env n tp nr).1
      (s.step env.maxMod env.voter (decide ((Node.changeModuleNr env n tp nr).2 = E.ok)) (.changeModuleNr tp nr)) := by
  have hlt : tp < s.tab.mods.length := by
    by_cases hl : tp < s.tab.mods.length
    · exact hl
    · exact absurd (h.sim.free tp (by omega)).1 hn
  have hg : s.tab.mods[tp]? = some s.tab.mods[tp] := by simp [hlt]
  have ro := h.sim.row tp _ hg
  have hlen := h.sim.len
  have key := h.changeNr h8 (n.rows tp).typ nr (n.rows tp).nr
  rw [ro.typ, ro.nr] at key
  have hcm : Node.changeModuleNr env n tp nr = (match env.voter with
      | none => Node.changeNr env n (n.rows tp).typ nr (n.rows tp).nr
      | some v => match v (n.rows tp).typ nr (n.rows tp).nr with
        | .valid => thenOk (Node.changeNr env n (n.rows tp).typ nr (n.rows tp).nr) fun n => setSilentAwake env n tp 1
        | .validButSilent =>
          thenOk (Node.changeNr env n (n.rows tp).typ nr (n.rows tp).nr) fun n => setSilentAwake env n tp 0
        | _ => (n, E.changingToInvalidNr)) := rfl
  rw [ro.typ, ro.nr] at hcm
  generalize Node.changeNr env n s.tab.mods[tp].typ nr s.tab.mods[tp].nr = r at key hcm
  obtain ⟨n1, e1⟩ := r
  have two : ∀ st, st = 0 ∨ st = 1 → SimL env (thenOk (n1, e1) fun n => setSilentAwake env n tp st).1
      (if decide ((thenOk (n1, e1) fun n => setSilentAwake env n tp st).2 = E.ok) = true then
        { s.renumber s.tab.mods[tp].typ nr s.tab.mods[tp].nr
            (decide ((thenOk (n1, e1) fun n => setSilentAwake env n tp st).2 = E.ok)) with
          tab := ((s.renumber s.tab.mods[tp].typ nr s.tab.mods[tp].nr
            (decide ((thenOk (n1, e1) fun n => setSilentAwake env n tp st).2 = E.ok))).tab.step env.maxMod
              (decide ((thenOk (n1, e1) fun n => setSilentAwake env n tp st).2 = E.ok)) (.silentAwake tp st)).1 }
       else s.renumber s.tab.mods[tp].typ nr s.tab.mods[tp].nr
            (decide ((thenOk (n1, e1) fun n => setSilentAwake env n tp st).2 = E.ok))) := by
    intro st hst
    by_cases he : e1 = E.ok
    · subst he
      rw [thenOk_ok]
      have h2 : (setSilentAwake env n1 tp st).2 = E.ok := by
        simp only [setSilentAwake, show tp < env.maxMod from by omega, if_true]
        rcases hst with rfl | rfl <;> simp
      rw [h2]
      simp only [decide_true, if_true] at key ⊢
      exact key.silentAwake h8 tp st true
    · have e : (thenOk (n1, e1) fun n => setSilentAwake env n tp st) = (n1, e1) := by
        rw [thenOk, if_neg he]
      rw [e]
      simp only [he, decide_false, Bool.false_eq_true, if_false] at key ⊢
      exact key
  cases hv : env.voter with
  | none =>
    rw [hv] at hcm
    rw [hcm]; simp only [SendList.step, hg]
    exact key
  | some v =>
    rw [hv] at hcm
    simp only at hcm
    cases hw : v s.tab.mods[tp].typ nr s.tab.mods[tp].nr with
    | valid =>
      rw [hw] at hcm
      rw [hcm]; simp only [SendList.step, hg, hw]
      exact two 1 (.inr rfl)
    | validButSilent =>
      rw [hw] at hcm
      rw [hcm]; simp only [SendList.step, hg, hw]
      exact two 0 (.inl rfl)
    | error =>
      rw [hw] at hcm
      rw [hcm]; simp only [SendList.step, hg, hw]
      exact h
    | forbidden =>
      rw [hw] at hcm
      rw [hcm]; simp only [SendList.step, hg, hw]
      exact h

theorem SimL.changeTypeAdd {env : Env} {n : Node} {s : SendList} (h : SimL env n s)
    (typ : List Byte) (tpl : Row) (rx tx : Nat → Nat) (cb : Bool) (ho : Numbering (.changeTypeAdd typ tpl rx tx cb)) :
    SimL env (Node.changeTypeAdd env n typ tpl rx tx cb).1 (s.step env.maxMod env.voter true (.changeTypeAdd typ tpl rx tx cb)) := by
  simp only [Node.changeTypeAdd, SendList.step, h.sim.findType typ ho.1]
  cases hx : s.tab.mods.findIdx? fun m => m.typ = typ with
  | none => exact h
  | some k =>
    have hk := findIdx?_lt hx
    refine ⟨h.sim.congr rfl rfl rfl, h.last, h.cnt, fun i => ?_, fun i c hc => ?_⟩
    · simp only [upd]
      split
      · rfl
      · exact h.alt i
    · simp only [upd] at hc
      split at hc
      · next e =>
        rw [← Option.some.inj hc]
        exact ⟨by rw [e]; exact hk, ho.2⟩
      · exact h.altOk i c hc

/-- the transmit objects of one row -/
theorem retx_row (env : Env) (n : Node) (e : Err) (tp : Nat) (htp : tp < env.maxMod) (k : Nat) (hk : k ≤ 4) :
    ∃ e', (List.range k).foldl (fun r i => txCnfg env r.1 tp i (r.1.rows tp).nr) (n, e) =
      ({ n with tx := cnfgTx n.tx (n.rows tp).txDlc tp (n.rows tp).nr k }, e') := by
  induction k with
  | zero => exact ⟨e, rfl⟩
  | succ k ih =>
    obtain ⟨e', h⟩ := ih (by omega)
    rw [List.range_succ, List.foldl_append, h]
    refine ⟨E.ok, ?_⟩
    simp only [List.foldl_cons, List.foldl_nil, txCnfg, cnfgTx]
    rw [if_neg (by omega), if_neg (by omega)]

/-- transmit control after the rows below `k` have been set up again -/
structure Retx (n : Node) (k : Nat) (tx : TxCtl) : Prop where
  bits : ∀ p, tx.reg.getLsbD p = true ↔ p / 4 < k ∧ n.silent (p / 4) = 1 ∧ p % 4 < (n.rows (p / 4)).txObj
  id   : ∀ i o, tx.id i o = if i < k ∧ n.silent i = 1 ∧ o < (n.rows i).txObj then syncTxId (n.rows i).nr o else n.tx.id i o
  dlc  : ∀ i o, tx.dlc i o = if i < k ∧ n.silent i = 1 ∧ o < (n.rows i).txObj then (n.rows i).txDlc o else n.tx.dlc i o

theorem retx_eq (env : Env) (h8 : env.maxMod ≤ 8) (n : Node) (l : List Mod) (hreg : n.tx.reg = 0) (hlast : n.tx.last = 0)
    (h4 : ∀ i, (n.rows i).txObj ≤ 4) (hl : ∀ i, (l[i]?.map Mod.txObj).getD 0 = (n.rows i).txObj) (k : Nat) (hk : k ≤ env.maxMod) :
    ∃ tx e, retx env (List.range k) (n, E.ok) = ({ n with tx := tx }, e) ∧ Retx n k tx ∧ tx.last = endOf l n.silent k := by
  have app : ∀ (a b : List Nat) (r : Node × Err), retx env (a ++ b) r = retx env b (retx env a r) := by
    intro a
    induction a with
    | nil => intro b r; rfl
    | cons x a ih =>
      intro b r
      simp only [List.cons_append, retx]
      split
      · exact ih _ _
      · exact ih _ _
  induction k with
  | zero =>
    refine ⟨n.tx, E.ok, rfl, ⟨fun p => ?_, fun i o => ?_, fun i o => ?_⟩, hlast⟩
    · rw [hreg]; simp
    · simp
    · simp
  | succ k ih =>
    obtain ⟨tx, e, h1, h2, h3⟩ := ih (by omega)
    rw [List.range_succ, app, h1]
    simp only [retx]
    by_cases ha : n.silent k = 1
    · rw [if_pos ha]
      obtain ⟨e', h⟩ := retx_row env { n with tx := tx } e k (by omega) (n.rows k).txObj (h4 k)
      refine ⟨cnfgTx tx (n.rows k).txDlc k (n.rows k).nr (n.rows k).txObj, e', ?_, ⟨fun p => ?_, fun i o => ?_, fun i o => ?_⟩, ?_⟩
      · simp only [h]
      · rw [cnfgTx_reg, setBits_bit _ _ _ _ (h4 k) (by omega)]
        simp only [Bool.or_eq_true, decide_eq_true_eq, h2.bits]
        have hk4 := h4 k
        constructor
        · rintro (⟨a, b, c⟩ | ⟨a, b⟩)
          · exact ⟨by omega, b, c⟩
          · have : p / 4 = k := by omega
            rw [this]
            exact ⟨by omega, ha, by omega⟩
        · rintro ⟨a, b, c⟩
          by_cases e : p / 4 = k
          · right; rw [e] at c; omega
          · left; exact ⟨by omega, b, c⟩
      · rw [cnfgTx_id, h2.id]
        by_cases e : i = k
        · subst e
          by_cases ho : o < (n.rows i).txObj
          · simp [ho, ha]
          · simp [ho]
        · have : i < k + 1 ↔ i < k := by omega
          simp only [e, false_and, if_false, this]
      · rw [cnfgTx_dlc, h2.dlc]
        by_cases e : i = k
        · subst e
          by_cases ho : o < (n.rows i).txObj
          · simp [ho, ha]
          · simp [ho]
        · have : i < k + 1 ↔ i < k := by omega
          simp only [e, false_and, if_false, this]
      · rw [cnfgTx_last, endOf, if_pos ha, hl k, endAt, h3]
    · rw [if_neg ha]
      refine ⟨tx, e, rfl, ⟨fun p => ?_, fun i o => ?_, fun i o => ?_⟩, ?_⟩
      · rw [h2.bits]
        constructor
        · rintro ⟨a, b, c⟩; exact ⟨by omega, b, c⟩
        · rintro ⟨a, b, c⟩
          have : p / 4 ≠ k := by intro e; rw [e] at b; exact ha b
          exact ⟨by omega, b, c⟩
      · rw [h2.id]
        by_cases e : i = k
        · subst e; simp [ha]
        · have : i < k + 1 ↔ i < k := by omega
          simp only [this]
      · rw [h2.dlc]
        by_cases e : i = k
        · subst e; simp [ha]
        · have : i < k + 1 ↔ i < k := by omega
          simp only [this]
      · rw [endOf, if_neg ha, h3]

theorem SimL.changeType {env : Env} {n : Node} {s : SendList} (h : SimL env n s) (h8 : env.maxMod ≤ 8)
    (tp : Nat) (typ : List Byte) (hn : Named n (.changeType tp typ)) :
    SimL env (Node.changeType env n tp typ).1 (s.step env.maxMod env.voter true (.changeType tp typ)) := by
  have ha := h.alt tp
  simp only [Node.changeType, SendList.step]
  cases hc : n.chg tp with
  | none =>
    rw [hc] at ha
    simp only [← ha, Option.map_none]; exact h
  | some c =>
    rw [hc] at ha
    simp only [Option.map_some] at ha
    simp only [← ha]
    by_cases ht : ¬ c.row.typ.take 4 = typ.take 4
    · simp only [ht, if_false]; exact h
    have ht := Decidable.of_not_not ht
    simp only [ht, if_true]
    obtain ⟨hlen, hne, ht4, hr4⟩ := h.altOk tp c.row ha.symm
    obtain ⟨haw, hcnt⟩ := hn (by rw [hc]; rfl)
    have hmax := h.sim.len
    have hnr : n.nrMod = s.tab.mods.length := by
      apply Nat.le_antisymm h.cnt
      have h0 : 0 < s.tab.mods.length := by omega
      have ro := h.sim.row (s.tab.mods.length - 1) (s.tab.mods[s.tab.mods.length - 1]) (by simp)
      have := hcnt (s.tab.mods.length - 1) (by rw [ro.typ]; exact ro.ne)
      omega
    generalize hl1 : (s.retype tp c.row).tab.mods = l
    have hl1' : l = s.tab.mods.mapIdx fun i m =>
      if i = tp then { m with on := decide (s.tab.awake i = 1), typ := c.row.typ, txObj := c.row.txObj, txDlc := c.row.txDlc
                              tx := c.row.tx, main := c.row.txMain, conv := c.row.txMainSync }
      else { m with on := decide (s.tab.awake i = 1) } := by
      rw [← hl1]; rfl
    have hlen1 : l.length = s.tab.mods.length := by rw [hl1']; simp
    have hs : s.retype tp c.row = { s with tab := { s.tab with mods := l }, last := endOf l s.tab.awake l.length } := by
      rw [← hl1]; rfl
    rw [hs]
    have get : ∀ i, l[i]? = (s.tab.mods[i]?).map fun m =>
      if i = tp then { m with on := decide (s.tab.awake i = 1), typ := c.row.typ, txObj := c.row.txObj, txDlc := c.row.txDlc
                              tx := c.row.tx, main := c.row.txMain, conv := c.row.txMainSync }
      else { m with on := decide (s.tab.awake i = 1) } := by
      intro i; rw [hl1', List.getElem?_mapIdx]
    generalize hf : (fun r : Row =>
        { r with typ := c.row.typ
                 rxObj := c.row.rxObj, rxObjSync := c.row.rxObjSync
                 rx := c.row.rx, rxDlc := c.row.rxDlc, rxMain := c.row.rxMain
                 rxDlcSync := c.row.rxDlc, rxMainSync := c.row.rxMainSync
                 txObj := c.row.txObj, txObjSync := c.row.txObjSync
                 tx := c.row.tx, txDlc := c.row.txDlc, txMain := c.row.txMain
                 txDlcSync := c.row.txDlc, txMainSync := c.row.txMainSync }) = f
    have f1 : ∀ r, (f r).typ = c.row.typ := by intro r; rw [← hf]
    have f2 : ∀ r, (f r).nr = r.nr := by intro r; rw [← hf]
    have f3 : ∀ r, (f r).txObj = c.row.txObj := by intro r; rw [← hf]
    have f4 : ∀ r, (f r).rxObj = c.row.rxObj := by intro r; rw [← hf]
    have f5 : ∀ r, (f r).txDlc = c.row.txDlc := by intro r; rw [← hf]
    have f6 : ∀ r, (f r).tx = c.row.tx := by intro r; rw [← hf]
    have f7 : ∀ r, (f r).txMain = c.row.txMain := by intro r; rw [← hf]
    have f8 : ∀ r, (f r).txMainSync = c.row.txMainSync := by intro r; rw [← hf]
    generalize hn1 : ({ n.setRow tp f with tx := { (n.setRow tp f).tx with reg := 0, last := 0 } } : Node) = n1
    have r1 : ∀ i, n1.rows i = if i = tp then f (n.rows tp) else n.rows i := by
      intro i; rw [← hn1]; rfl
    have s1 : n1.silent = n.silent := by rw [← hn1]; rfl
    have x1 : n1.tx = { n.tx with reg := 0, last := 0 } := by rw [← hn1]; rfl
    have q1 : Rest n n1 := by rw [← hn1]; exact ⟨rfl, rfl⟩
    have m1 : (n.setRow tp f).nrMod = s.tab.mods.length := hnr
    have new : ∀ i m, l[i]? = some m →
        (n1.rows i).typ = m.typ ∧ m.typ ≠ [] ∧ (n1.rows i).nr = m.nr ∧ (n1.rows i).txObj = m.txObj ∧ m.txObj ≤ 4 ∧
        (n1.rows i).rxObj ≤ 4 ∧ (n1.rows i).txDlc = m.txDlc ∧ (n1.rows i).tx = m.tx ∧ (n1.rows i).txMain = m.main ∧
        (∀ o < m.txObj, (n1.rows i).txMainSync o = m.conv o) ∧ m.on = decide (n1.silent i = 1) ∧
        (n1.silent i = 1 ∨ ∃ m0, s.tab.mods[i]? = some m0 ∧ m0.txObj = m.txObj ∧ m0.nr = m.nr ∧ m0.txDlc = m.txDlc) := by
      intro i m hm
      rw [get] at hm
      obtain ⟨m0, h0, rfl⟩ := Option.map_eq_some_iff.mp hm
      have ro := h.sim.row i m0 h0
      rw [r1, s1]
      split
      · next e =>
        simp only [f1, f2, f3, f4, f5, f6, f7, f8]
        subst e
        exact ⟨trivial, hne, ro.nr, trivial, ht4, hr4, trivial, trivial, trivial, fun _ _ => trivial,
          by rw [h.sim.awake], Or.inl haw⟩
      · exact ⟨ro.typ, ro.ne, ro.nr, ro.txObj, ro.tx4, ro.rx4, ro.txDlc, ro.tx, ro.main, ro.conv,
          by rw [h.sim.awake], Or.inr ⟨m0, h0, rfl, rfl, rfl⟩⟩
    have free : ∀ i, l.length ≤ i → n1.rows i = n.rows i := by
      intro i hi
      rw [r1, if_neg (by omega)]
    have none : ∀ i, l.length ≤ i → l[i]? = none := fun i hi => List.getElem?_eq_none hi
    have lobj : ∀ i, (l[i]?.map Mod.txObj).getD 0 = (n1.rows i).txObj := by
      intro i
      by_cases hi : i < l.length
      · have := new i l[i] (by simp [hi])
        rw [this.2.2.2.1]; simp [hi]
      · rw [none i (by omega), free i (by omega), (h.sim.free i (by omega)).2.1]; rfl
    have l4 : ∀ i, (n1.rows i).txObj ≤ 4 := by
      intro i
      by_cases hi : i < l.length
      · have := new i l[i] (by simp [hi])
        rw [this.2.2.2.1]; exact this.2.2.2.2.1
      · rw [free i (by omega), (h.sim.free i (by omega)).2.1]; omega
    obtain ⟨tx, e, h1, h2, h3⟩ := retx_eq env h8 n1 l (by rw [x1]) (by rw [x1]) l4 lobj s.tab.mods.length hmax
    rw [m1, h1]
    have key : SimL env { n1 with tx := tx }
        { s with tab := { s.tab with mods := l }, last := endOf l s.tab.awake l.length } := by
      refine h.next ⟨by rw [hlen1]; exact hmax, by rw [← h.sim.awake]; exact s1, fun i m hm => ?_, fun i hi => ?_, fun p => ?_⟩
        ?_ ⟨q1.chg, q1.nrMod⟩ rfl (Nat.le_of_eq hlen1.symm)
      · have hi : i < s.tab.mods.length := by
          rw [← hlen1]; exact (List.getElem?_eq_some_iff.mp hm).1
        obtain ⟨a1, a2, a3, a4, a5, a6, a7, a8, a9, a10, a11, a12⟩ := new i m hm
        refine ⟨a1, a2, a3, a4, a5, a6, a7, a8, a9, a10, fun o ho => ?_, fun o ho => ?_, fun q => q.elim, fun q => q.elim, fun q => q.elim⟩
        · simp only [h2.id]
          by_cases hs : n1.silent i = 1
          · rw [if_pos ⟨hi, hs, by rw [a4]; exact ho⟩, a3]
          · rw [if_neg fun q => hs q.2.1, x1]
            obtain ⟨m0, g0, g1, g2, g3⟩ := a12.resolve_left hs
            simp only
            rw [(h.sim.row i m0 g0).id o (by rw [g1]; exact ho), g2]
        · simp only [h2.dlc]
          by_cases hs : n1.silent i = 1
          · rw [if_pos ⟨hi, hs, by rw [a4]; exact ho⟩, a7]
          · rw [if_neg fun q => hs q.2.1, x1]
            obtain ⟨m0, g0, g1, g2, g3⟩ := a12.resolve_left hs
            simp only
            rw [(h.sim.row i m0 g0).dlc o (by rw [g1]; exact ho), g3]
      · have hi : l.length ≤ i := hi
        simp only [free i hi]
        exact h.sim.free i (by omega)
      · simp only [h2.bits]
        constructor
        · rintro ⟨a, b, c⟩
          have hi : p / 4 < l.length := by omega
          have := new (p / 4) l[p / 4] (by simp [hi])
          refine ⟨l[p / 4], by simp [hi], ?_, by rw [← this.2.2.2.1]; exact c⟩
          rw [this.2.2.2.2.2.2.2.2.2.2.1, b]; rfl
        · rintro ⟨m, a, b, c⟩
          have hi : p / 4 < l.length := (List.getElem?_eq_some_iff.mp a).1
          have := new (p / 4) m a
          refine ⟨by omega, ?_, by rw [this.2.2.2.1]; exact c⟩
          rw [this.2.2.2.2.2.2.2.2.2.2.1] at b
          exact of_decide_eq_true b
      · simp only
        rw [h3, s1, h.sim.awake, hlen1]
    split
    · exact key.next (key.sim.congr rfl rfl rfl) key.last ⟨rfl, rfl⟩ rfl (Nat.le_refl _)
    · exact key

theorem SimL.step {env : Env} {n : Node} {s : SendList} (h : SimL env n s) (h8 : env.maxMod ≤ 8) (op : Op)
    (ho : Numbering op) (hn : Named n op) :
    SimL env (Node.step env n op).1 (s.step env.maxMod env.voter (doneOk env n op) op) := by
  cases op with
  | add tpl nr rx tx => exact h.add h8 tpl nr rx tx ho
  | silentAwake tp st => exact h.silentAwake h8 tp st true
  | silentAwakeBy typ nr st =>
    refine h.next (h.sim.silentAwakeBy h8 typ nr st true ho).1 ?_ (.same (setSilentAwakeBy_sameHw env n typ nr st)) rfl
      (Nat.le_of_eq (step_length (by simp)).symm)
    have : (setSilentAwakeBy env n typ nr st).1.tx.last = n.tx.last := by
      unfold setSilentAwakeBy; split
      · exact setSilentAwake_last ..
      · rfl
    exact this.trans h.last
  | setActive typ =>
    refine h.next (h.sim.active h8 typ true ho).1 ?_ (.same (setActive_sameHw env n typ)) rfl
      (Nat.le_of_eq (step_length (by simp)).symm)
    have : (setActive env n typ).1.tx.last = n.tx.last := by
      unfold setActive; split
      · dsimp only; rw [syncOn_eq]
      · rfl
    exact this.trans h.last
  | setCritical typ =>
    refine h.next (h.sim.critical h8 typ true ho).1 ?_ (.same (setCritical_sameHw env n typ)) rfl
      (Nat.le_of_eq (step_length (by simp)).symm)
    have : (setCritical env n typ).1.tx.last = n.tx.last := by
      unfold setCritical; split
      · next tp _ =>
        dsimp only
        obtain ⟨_, _, e⟩ := syncOff_eq env n tp
        rw [e]
      · rfl
    exact this.trans h.last
  | process =>
    refine h.next h.sim.process ?_ (sendProcessData_tx env n).2 rfl (Nat.le_refl _)
    show ((sendProcessData env n).getD n).tx.last = _
    rw [(sendProcessData_tx env n).1]; exact h.last
  | changeNr typ nr act => exact h.changeNr h8 typ nr act
  | changeModuleNr tp nr => exact h.changeModuleNr h8 tp nr hn
  | changeTypeAdd typ tpl rx tx cb => exact h.changeTypeAdd typ tpl rx tx cb ho
  | changeType tp typ => exact h.changeType h8 tp typ hn

theorem SimL.run {env : Env} (h8 : env.maxMod ≤ 8) (ops : List Op) (ho : ∀ o ∈ ops, Numbering o) :
    ∀ {n : Node} {s : SendList}, SimL env n s → AllNamed env n ops → SimL env (Node.run env n ops) (listRun env n s ops) := by
  induction ops with
  | nil => exact fun h _ => h
  | cons o os ih =>
    intro n s h hn
    exact ih (fun x hx => ho x (by simp [hx])) (h.step h8 o (ho o (by simp)) hn.1) hn.2

theorem SimL.init {env : Env} (he : EnvOk env) (mem : Nat → List Byte) (hok : (Node.init env (boot mem)).2 = E.ok) :
    SimL env (Node.init env (boot mem)).1 SendList.empty := by
  obtain ⟨_, a2, _, _, _, a6, _, a8, _⟩ := init_state env he (boot mem) hok
  exact ⟨(Good.init he mem hok).sim.weaken, by rw [a6]; rfl, by rw [a2]; omega, fun i => by rw [a8]; rfl,
    fun i c hc => by cases hc⟩

/-! ## numbers -/

/-- the numbers have identifiers -/
def NumOk (l : List Mod) : Prop := ∀ (i : Nat) (m : Mod), l[i]? = some m → 1 ≤ m.nr ∧ m.nr ≤ 255

theorem NumOk.modify {l : List Mod} (h : NumOk l) (tp : Nat) (f : Mod → Mod)
    (hf : ∀ m, (1 ≤ m.nr ∧ m.nr ≤ 255) → 1 ≤ (f m).nr ∧ (f m).nr ≤ 255) : NumOk (l.modify tp f) := by
  intro i m hm
  rw [List.getElem?_modify] at hm
  simp only [Option.map_eq_map, Option.map_eq_some_iff] at hm
  obtain ⟨m0, h0, rfl⟩ := hm
  split
  · exact hf _ (h i m0 h0)
  · exact h i m0 h0

theorem NumOk.switch {l : List Mod} (h : NumOk l) (tp : Nat) (b : Bool) : NumOk (switch l tp b) :=
  h.modify tp _ fun m hm => by split <;> exact hm

theorem NumOk.tabStep {t : Table} (h : NumOk t.mods) (maxMod : Nat) (ok : Bool) (op : Op) (hl : t.mods.length ≤ 8) :
    NumOk (t.step maxMod ok op).1.mods := by
  cases op with
  | add tpl nr rx tx =>
    simp only [Table.step]; split
    · exact h
    · intro i m hm
      simp only [List.getElem?_append] at hm
      split at hm
      · exact h i m hm
      · have h1 : i - t.mods.length < 1 := by
          have := (List.getElem?_eq_some_iff.1 hm).1; simpa using this
        have h2 : i = t.mods.length := by omega
        subst h2
        simp only [Nat.sub_self, List.getElem?_cons_zero, Option.some.injEq] at hm
        rw [← hm]
        simp only [newNr]
        split <;> omega
  | silentAwake tp st =>
    simp only [Table.step]; (repeat' split) <;> first | exact h | exact h.switch _ _
  | silentAwakeBy typ nr st =>
    simp only [Table.step]; split
    · exact h
    · (repeat' split) <;> first | exact h | exact h.switch _ _
  | setActive typ => simp only [Table.step]; split <;> first | exact h | exact h.switch _ _
  | setCritical typ => simp only [Table.step]; split <;> first | exact h | exact h.switch _ _
  | _ => exact h

theorem NumOk.renumber {s : SendList} (h : NumOk s.tab.mods) (typ : List Byte) (nr act : Nat) (ok : Bool)
    (hr : 1 ≤ nr ∧ nr ≤ 255) : NumOk (s.renumber typ nr act ok).tab.mods := by
  unfold SendList.renumber
  split
  · exact h
  · simp only [Spec.renumberAt]
    split
    · exact (h.modify _ _ fun _ _ => hr).switch _ _
    · exact h.modify _ _ fun _ _ => hr

theorem NumOk.step {s : SendList} (h : NumOk s.tab.mods) (hl : s.tab.mods.length ≤ 8) (maxMod : Nat)
    (v : Option (List Byte → Nat → Nat → Vote)) (ok : Bool) (op : Op) (ho : Numbering op) :
    NumOk (s.step maxMod v ok op).tab.mods := by
  have hlen : ∀ typ nr act, (s.renumber typ nr act ok).tab.mods.length ≤ 8 := by
    intro typ nr act
    unfold SendList.renumber
    split
    · exact hl
    · simp only [Spec.renumberAt]
      split <;> simp [Spec.switch, hl]
  cases op with
  | changeNr typ nr act => exact h.renumber _ _ _ _ ho
  | changeModuleNr tp nr =>
    simp only [SendList.step]
    split
    · exact h
    · next m _ =>
      have h2 := h.renumber m.typ nr m.nr ok ho
      split
      · exact h2
      · split
        · split
          · exact h2.tabStep _ _ _ (hlen ..)
          · exact h2
        · split
          · exact h2.tabStep _ _ _ (hlen ..)
          · exact h2
        · exact h
  | add => exact h.tabStep _ _ _ hl
  | silentAwake => exact h.tabStep _ _ _ hl
  | silentAwakeBy => exact h.tabStep _ _ _ hl
  | setActive => exact h.tabStep _ _ _ hl
  | setCritical => exact h.tabStep _ _ _ hl
  | process => exact h.tabStep _ _ _ hl
  | changeTypeAdd =>
    simp only [SendList.step]
    split <;> exact h
  | changeType tp typ =>
    simp only [SendList.step]
    split
    · exact h
    · split
      · intro i m hm
        simp only [SendList.retype, List.getElem?_mapIdx, Option.map_eq_some_iff] at hm
        obtain ⟨m0, h0, rfl⟩ := hm
        have := h i m0 h0
        split <;> exact this
      · exact h

theorem NumOk.listRun {env : Env} (h8 : env.maxMod ≤ 8) (ops : List Op) (ho : ∀ o ∈ ops, Numbering o) :
    ∀ {n : Node} {s : SendList}, SimL env n s → AllNamed env n ops → NumOk s.tab.mods →
      NumOk (Node.listRun env n s ops).tab.mods := by
  induction ops with
  | nil => exact fun _ _ h => h
  | cons o os ih =>
    intro n s h hn hu
    exact ih (fun x hx => ho x (by simp [hx])) (h.step h8 o (ho o (by simp)) hn.1) hn.2
      (hu.step (Nat.le_trans h.sim.len h8) _ _ _ o (ho o (by simp)))

end Node
end LiCan
