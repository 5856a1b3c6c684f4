import Verif.Lemmas.NodeOps
import Verif.Spec.Modules
/-! # The module table refines its specification -/
namespace LiCan
open Spec
namespace Node

/-- a row of the table represents a module of the specification; the parts guarded by `Q` are those a
number change does not keep -/
structure RowOk (Q : Prop) (n : Node) (i : Nat) (m : Mod) : Prop where
  typ   : (n.rows i).typ = m.typ
  ne    : m.typ ≠ []
  nr    : (n.rows i).nr = m.nr
  txObj : (n.rows i).txObj = m.txObj
  tx4   : m.txObj ≤ 4
  rx4   : (n.rows i).rxObj ≤ 4
  txDlc : (n.rows i).txDlc = m.txDlc
  tx    : (n.rows i).tx = m.tx
  main  : (n.rows i).txMain = m.main
  conv  : ∀ o < m.txObj, (n.rows i).txMainSync o = m.conv o
  id    : ∀ o < m.txObj, n.tx.id i o = syncTxId m.nr o
  dlc   : ∀ o < m.txObj, n.tx.dlc i o = m.txDlc o
  last  : Q → ∀ o < m.txObj, 4 * i + o ≤ n.tx.last
  rxs   : Q → (n.rows i).rxObjSync = if m.on then (n.rows i).rxObj else 0
  txs   : Q → (n.rows i).txObjSync = if m.on then m.txObj else 0

/-- simulation relation -/
structure SimQ (Q : Prop) (env : Env) (n : Node) (t : Table) : Prop where
  len   : t.mods.length ≤ env.maxMod
  awake : n.silent = t.awake
  row   : ∀ i m, t.mods[i]? = some m → RowOk Q n i m
  free  : ∀ i, t.mods.length ≤ i →
            (n.rows i).typ = [] ∧ (n.rows i).txObj = 0 ∧ (n.rows i).rxObj = 0 ∧ (n.rows i).rxObjSync = 0
  bits  : ∀ p, n.tx.reg.getLsbD p = true ↔ ∃ m, t.mods[p / 4]? = some m ∧ m.on = true ∧ p % 4 < m.txObj

/-- all parts -/
abbrev Sim := SimQ True

theorem SimQ.congr {env : Env} {n n' : Node} {t : Table} (h : SimQ Q env n t)
    (hr : n'.rows = n.rows) (hs : n'.silent = n.silent) (ht : n'.tx = n.tx) : SimQ Q env n' t := by
  obtain ⟨h1, h2, h3, h4, h5⟩ := h
  refine ⟨h1, by rw [hs, h2], fun i m hm => ?_, by rw [hr]; exact h4, by rw [ht]; exact h5⟩
  obtain ⟨a, b, c, d, e, e', f, g, h, i', j, k, l, l', l''⟩ := h3 i m hm
  exact ⟨by rw [hr]; exact a, b, by rw [hr]; exact c, by rw [hr]; exact d, e, by rw [hr]; exact e',
    by rw [hr]; exact f, by rw [hr]; exact g, by rw [hr]; exact h, by rw [hr]; exact i',
    by rw [ht]; exact j, by rw [ht]; exact k, by rw [ht]; exact l, by rw [hr]; exact l',
    by rw [hr]; exact l''⟩

theorem switch_get (l : List Mod) (tp i : Nat) (b : Bool) :
    (switch l tp b)[i]? = (l[i]?).map fun m =>
      if tp = i then (if b then { m with on := true, conv := m.main }
        else { m with on := false, conv := fun _ => .dummy })
      else m := by
  simp only [switch, List.getElem?_modify]
  cases l[i]? <;> simp

theorem switch_append (l : List Mod) (m : Mod) (b : Bool) :
    switch (l ++ [m]) l.length b =
      l ++ [if b then { m with on := true, conv := m.main }
        else { m with on := false, conv := fun _ => .dummy }] := by
  apply List.ext_getElem?
  intro i
  rw [switch_get]
  by_cases h : i < l.length
  · have : l.length ≠ i := by omega
    rw [List.getElem?_append_left h, List.getElem?_append_left h]; simp [this]
  · rw [List.getElem?_append_right (by omega), List.getElem?_append_right (by omega)]
    by_cases e : i = l.length
    · subst e; simp
    · have : i - l.length = (i - l.length - 1) + 1 := by omega
      rw [this]; simp

theorem switch_length (l : List Mod) (tp : Nat) (b : Bool) : (switch l tp b).length = l.length := by
  simp [switch]

/-- switching a row on -/
theorem SimQ.on {env : Env} {n : Node} {t : Table} (h : SimQ Q env n t) (h8 : env.maxMod ≤ 8)
    (tp : Nat) (htp : tp < env.maxMod) :
    SimQ Q env (syncOn n tp) { t with mods := switch t.mods tp true } := by
  have h8' : tp < 8 := by omega
  rw [syncOn_eq]
  refine ⟨by simpa [switch_length] using h.len, h.awake, ?_, ?_, ?_⟩
  · intro i m hm
    simp only [switch_get, Option.map_eq_some_iff] at hm
    obtain ⟨m0, hm0, rfl⟩ := hm
    have r := h.row i m0 hm0
    by_cases hi : tp = i
    · subst hi
      simp only [↓reduceIte]
      refine ⟨?_, r.ne, ?_, ?_, r.tx4, ?_, ?_, ?_, ?_, ?_, r.id, r.dlc, r.last, ?_, ?_⟩ <;>
        simp only [upd_same, onRow]
      · exact r.typ
      · exact r.nr
      · exact r.txObj
      · exact r.rx4
      · exact r.txDlc
      · exact r.tx
      · exact r.main
      · intro o ho
        simp only [first, r.txObj, ho, if_true, r.main]
      · simp
      · simp [r.txObj]
    · have hi' : i ≠ tp := fun e => hi e.symm
      simp only [hi, if_false]
      obtain ⟨a, b, c, d, e, e', f, g, h, i', j, k, l, l', l''⟩ := r
      constructor <;> (try simp only [upd_other _ _ hi']) <;> assumption
  · intro i hi
    simp only [switch_length] at hi
    have f := h.free i hi
    by_cases hit : i = tp
    · subst hit
      simp only [upd_same, onRow]
      exact ⟨f.1, f.2.1, f.2.2.1, f.2.2.1⟩
    · simpa only [upd_other _ _ hit] using f
  · intro p
    simp only [setBits_bit _ _ _ _ (show (n.rows tp).txObj ≤ 4 from by
      by_cases hl : tp < t.mods.length
      · have r := h.row tp t.mods[tp] (by simp [hl])
        rw [r.txObj]; exact r.tx4
      · rw [(h.free tp (by omega)).2.1]; omega) h8', Bool.or_eq_true, decide_eq_true_eq, switch_get, h.bits]
    constructor
    · rintro (⟨m, hm, hon, hp⟩ | ⟨ha, hb⟩)
      · by_cases e : tp = p / 4
        · exact ⟨{ m with on := true, conv := m.main }, by simp [hm, e], rfl, hp⟩
        · exact ⟨m, by simp [hm, e], hon, hp⟩
      · by_cases hl : tp < t.mods.length
        · have r := h.row tp t.mods[tp] (by simp [hl])
          have e : tp = p / 4 := by have := r.tx4; have := r.txObj; omega
          refine ⟨{ t.mods[tp] with on := true, conv := t.mods[tp].main }, ?_, rfl, ?_⟩
          · subst e; simp [hl]
          · have := r.tx4; have := r.txObj; show p % 4 < t.mods[tp].txObj; omega
        · rw [(h.free tp (by omega)).2.1] at hb; omega
    · rintro ⟨m, hm, hon, hp⟩
      simp only [Option.map_eq_some_iff] at hm
      obtain ⟨m0, hm0, rfl⟩ := hm
      by_cases e : tp = p / 4
      · right
        simp only [e, if_true] at hp
        subst e
        have r := h.row _ m0 hm0
        have hx : p % 4 < m0.txObj := hp
        have := r.txObj
        omega
      · left
        simp only [e, if_false] at hon hp
        exact ⟨m0, hm0, hon, hp⟩

/-- switching a row off -/
theorem SimQ.off {env : Env} {n : Node} {t : Table} (h : SimQ Q env n t) (h8 : env.maxMod ≤ 8)
    (tp : Nat) (htp : tp < env.maxMod) :
    SimQ Q env (syncOff env n tp) { t with mods := switch t.mods tp false } := by
  have h8' : tp < 8 := by omega
  obtain ⟨mm, u, he⟩ := syncOff_eq env n tp
  rw [he]
  refine ⟨by simpa [switch_length] using h.len, h.awake, ?_, ?_, ?_⟩
  · intro i m hm
    simp only [switch_get, Option.map_eq_some_iff] at hm
    obtain ⟨m0, hm0, rfl⟩ := hm
    have r := h.row i m0 hm0
    by_cases hi : tp = i
    · subst hi
      simp only [↓reduceIte, Bool.false_eq_true]
      refine ⟨?_, r.ne, ?_, ?_, r.tx4, ?_, ?_, ?_, ?_, ?_, r.id, r.dlc, r.last, ?_, ?_⟩ <;>
        simp only [upd_same, offRow]
      · exact r.typ
      · exact r.nr
      · exact r.txObj
      · exact r.rx4
      · exact r.txDlc
      · exact r.tx
      · exact r.main
      · intro o ho
        simp only [first, r.txObj, ho, if_true]
      · simp
      · simp
    · have hi' : i ≠ tp := fun e => hi e.symm
      simp only [hi, if_false]
      obtain ⟨a, b, c, d, e, e', f, g, h, i', j, k, l, l', l''⟩ := r
      constructor <;> (try simp only [upd_other _ _ hi']) <;> assumption
  · intro i hi
    simp only [switch_length] at hi
    have f := h.free i hi
    by_cases hit : i = tp
    · subst hit
      simp only [upd_same, offRow]
      exact ⟨f.1, f.2.1, f.2.2.1, trivial⟩
    · simpa only [upd_other _ _ hit] using f
  · intro p
    simp only [clearBits_bit _ _ _ _ (show (n.rows tp).txObj ≤ 4 from by
      by_cases hl : tp < t.mods.length
      · have r := h.row tp t.mods[tp] (by simp [hl])
        rw [r.txObj]; exact r.tx4
      · rw [(h.free tp (by omega)).2.1]; omega) h8', Bool.and_eq_true, Bool.not_eq_true',
      decide_eq_false_iff_not, switch_get, h.bits]
    constructor
    · rintro ⟨⟨m, hm, hon, hp⟩, hn⟩
      have e : tp ≠ p / 4 := by
        rintro rfl
        have r := h.row _ m hm
        have := r.txObj
        omega
      exact ⟨m, by simp [hm, e], hon, hp⟩
    · rintro ⟨m, hm, hon, hp⟩
      simp only [Option.map_eq_some_iff] at hm
      obtain ⟨m0, hm0, rfl⟩ := hm
      by_cases e : tp = p / 4
      · simp [e] at hon
      · simp only [e, if_false] at hon hp
        refine ⟨⟨m0, hm0, hon, hp⟩, ?_⟩
        by_cases hl : tp < t.mods.length
        · have r := h.row tp t.mods[tp] (by simp [hl])
          have := r.tx4; have := r.txObj
          omega
        · rw [(h.free tp (by omega)).2.1]; omega

/-- Silent / awake request for a row. -/
theorem SimQ.silentAwake {env : Env} {n : Node} {t : Table} (h : SimQ Q env n t) (h8 : env.maxMod ≤ 8)
    (tp st : Nat) (ok : Bool) :
    SimQ Q env (setSilentAwake env n tp st).1 (t.step env.maxMod ok (.silentAwake tp st)).1 ∧
    (setSilentAwake env n tp st).2 = (t.step env.maxMod ok (.silentAwake tp st)).2 := by
  simp only [setSilentAwake, Table.step]
  by_cases htp : tp < env.maxMod
  · have h1 : SimQ Q env { n with silent := upd n.silent tp st
                                  log := .silentCb tp (n.rows tp).nr st :: n.log }
        ⟨t.mods, upd t.awake tp st⟩ := by
      have h2 := h
      obtain ⟨a, b, c, d, e⟩ := h2
      refine ⟨a, by rw [b], fun i m hm => ?_, d, e⟩
      obtain ⟨a, b, c, d, e, e', f, g, h, i', j, k, l, l', l''⟩ := c i m hm
      exact ⟨a, b, c, d, e, e', f, g, h, i', j, k, l, l', l''⟩
    simp only [htp, if_true, show ¬ env.maxMod ≤ tp from by omega, if_false]
    by_cases h0 : st = 0
    · subst h0; simp only [if_true]
      exact ⟨h1.off h8 tp htp, trivial⟩
    · simp only [h0, if_false]
      by_cases h01 : st = 1
      · subst h01; simp only [if_true]
        exact ⟨h1.on h8 tp htp, trivial⟩
      · simp only [h01, if_false]
        exact ⟨h1, trivial⟩
  · simp only [htp, if_false, show env.maxMod ≤ tp from by omega, if_true]
    exact ⟨h, trivial⟩

/-- lookup by type and number finds the module the specification finds -/
theorem SimQ.find {env : Env} {n : Node} {t : Table} (h : SimQ Q env n t) (q : Row → Bool) (q' : Mod → Bool)
    (hq : ∀ i m, t.mods[i]? = some m → q (n.rows i) = q' m)
    (hf : ∀ i, t.mods.length ≤ i → q (n.rows i) = false) :
    (List.range env.maxMod).find? (fun i => q (n.rows i)) = t.mods.findIdx? q' := by
  cases hx : t.mods.findIdx? q' with
  | none =>
    rw [List.find?_eq_none]
    intro i _
    by_cases hl : i < t.mods.length
    · have := List.findIdx?_eq_none_iff.1 hx t.mods[i] (List.getElem_mem hl)
      rw [hq i t.mods[i] (by simp [hl]), this]; simp
    · rw [hf i (by omega)]; simp
  | some k =>
    obtain ⟨hk, hq1, hq2⟩ := List.findIdx?_eq_some_iff_getElem.1 hx
    rw [List.find?_range_eq_some]
    refine ⟨?_, ?_, ?_⟩
    · rw [hq k t.mods[k] (by simp [hk])]; exact hq1
    · have := h.len; simp only [List.mem_range]; omega
    · intro j hj
      rw [hq j (t.mods[j]'(by omega)) (by simp)]
      simpa using hq2 j hj

theorem SimQ.findTypeNr {env : Env} {n : Node} {t : Table} (h : SimQ Q env n t) (typ : List Byte)
    (nr : Nat) (hne : typ ≠ []) :
    n.findTypeNr env typ nr = t.mods.findIdx? fun m => m.typ = typ ∧ m.nr = nr := by
  refine h.find (fun r => decide (r.typ = typ ∧ r.nr = nr)) _ ?_ ?_
  · intro i m hm; rw [(h.row i m hm).typ, (h.row i m hm).nr]
  · intro i hi; rw [(h.free i hi).1]; simp [Ne.symm hne]

theorem SimQ.findType {env : Env} {n : Node} {t : Table} (h : SimQ Q env n t) (typ : List Byte)
    (hne : typ ≠ []) :
    n.findType env typ = t.mods.findIdx? fun m => m.typ = typ := by
  refine h.find (fun r => decide (r.typ = typ)) _ ?_ ?_
  · intro i m hm; rw [(h.row i m hm).typ]
  · intro i hi; rw [(h.free i hi).1]; simp [Ne.symm hne]

theorem findIdx?_lt {l : List Mod} {q : Mod → Bool} {k : Nat} (h : l.findIdx? q = some k) :
    k < l.length := (List.findIdx?_eq_some_iff_getElem.1 h).1

theorem SimQ.silentAwakeBy {env : Env} {n : Node} {t : Table} (h : SimQ Q env n t) (h8 : env.maxMod ≤ 8)
    (typ : List Byte) (nr st : Nat) (ok : Bool) (hne : typ ≠ []) :
    SimQ Q env (setSilentAwakeBy env n typ nr st).1 (t.step env.maxMod ok (.silentAwakeBy typ nr st)).1 ∧
    (setSilentAwakeBy env n typ nr st).2 = (t.step env.maxMod ok (.silentAwakeBy typ nr st)).2 := by
  simp only [setSilentAwakeBy, Table.step, h.findTypeNr typ nr hne]
  cases hx : t.mods.findIdx? fun m => m.typ = typ ∧ m.nr = nr with
  | none => exact ⟨h, rfl⟩
  | some k =>
    have hk : ¬ env.maxMod ≤ k := by have := findIdx?_lt hx; have := h.len; omega
    have := h.silentAwake h8 k st ok
    simpa only [Table.step, hk, if_false] using this

theorem SimQ.active {env : Env} {n : Node} {t : Table} (h : SimQ Q env n t) (h8 : env.maxMod ≤ 8)
    (typ : List Byte) (ok : Bool) (hne : typ ≠ []) :
    SimQ Q env (setActive env n typ).1 (t.step env.maxMod ok (.setActive typ)).1 ∧
    (setActive env n typ).2 = (t.step env.maxMod ok (.setActive typ)).2 := by
  simp only [setActive, Table.step, h.findType typ hne]
  cases hx : t.mods.findIdx? fun m => m.typ = typ with
  | none => exact ⟨h, rfl⟩
  | some k => exact ⟨h.on h8 k (by have := findIdx?_lt hx; have := h.len; omega), rfl⟩

theorem SimQ.critical {env : Env} {n : Node} {t : Table} (h : SimQ Q env n t) (h8 : env.maxMod ≤ 8)
    (typ : List Byte) (ok : Bool) (hne : typ ≠ []) :
    SimQ Q env (setCritical env n typ).1 (t.step env.maxMod ok (.setCritical typ)).1 ∧
    (setCritical env n typ).2 = (t.step env.maxMod ok (.setCritical typ)).2 := by
  simp only [setCritical, Table.step, h.findType typ hne]
  cases hx : t.mods.findIdx? fun m => m.typ = typ with
  | none => exact ⟨h, rfl⟩
  | some k => exact ⟨h.off h8 k (by have := findIdx?_lt hx; have := h.len; omega), rfl⟩

/-- the module entered into the table by a registration before it is completed -/
def rawMod (tpl : Row) (nr : Nat) (tx : Nat → Nat) : Mod :=
  { typ := tpl.typ, nr := nr, txObj := tpl.txObj, txDlc := tpl.txDlc, tx := tx
    main := tpl.txMain, conv := tpl.txMainSync, on := true }

theorem syncTx_append {env : Env} {n n' : Node} {t : Table} (h : SimQ Q env n t) (h8 : env.maxMod ≤ 8)
    (hl : t.mods.length < env.maxMod) (tpl r : Row) (nr : Nat) (tx : Nat → Nat)
    (hne : tpl.typ ≠ []) (ht4 : tpl.txObj ≤ 4) (hr4 : tpl.rxObj ≤ 4)
    (hrow : n'.rows = upd n.rows t.mods.length r) (hsil : n'.silent = n.silent)
    (htx : n'.tx = cnfgTx n.tx tpl.txDlc t.mods.length nr tpl.txObj)
    (r1 : r.typ = tpl.typ) (r2 : r.nr = nr) (r3 : r.txObj = tpl.txObj) (r4 : r.rxObj = tpl.rxObj)
    (r5 : r.txDlc = tpl.txDlc) (r6 : r.tx = tx) (r7 : r.txMain = tpl.txMain)
    (r8 : r.txMainSync = tpl.txMainSync) (r9 : r.rxObjSync = tpl.rxObj) (r10 : r.txObjSync = tpl.txObj) :
    SimQ Q env n' ⟨t.mods ++ [rawMod tpl nr tx], t.awake⟩ := by
  refine ⟨by simp; omega, by rw [hsil, h.awake], ?_, ?_, ?_⟩
  · intro i m hm
    by_cases hi : i < t.mods.length
    · rw [List.getElem?_append_left hi] at hm
      have ro := h.row i m hm
      have hi' : i ≠ t.mods.length := by omega
      have hrw : n'.rows i = n.rows i := by rw [hrow, upd_other _ _ hi']
      obtain ⟨a, b, c, d, e, e', f, g, h, i', j, k, l, l', l''⟩ := ro
      refine ⟨by rw [hrw]; exact a, b, by rw [hrw]; exact c, by rw [hrw]; exact d, e,
        by rw [hrw]; exact e', by rw [hrw]; exact f, by rw [hrw]; exact g, by rw [hrw]; exact h,
        by rw [hrw]; exact i', ?_, ?_, ?_, by rw [hrw]; exact l', by rw [hrw]; exact l''⟩
      · intro o ho; rw [htx, cnfgTx_id]; simp only [hi', false_and, if_false]; exact j o ho
      · intro o ho; rw [htx, cnfgTx_dlc]; simp only [hi', false_and, if_false]; exact k o ho
      · intro hq o ho; rw [htx, cnfgTx_last]
        split
        · exact l hq o ho
        · omega
    · have hi2 : i = t.mods.length := by
        have := (List.getElem?_eq_some_iff.1 hm).1
        simp at this; omega
      subst hi2
      simp only [List.getElem?_append_right (Nat.le_refl _), Nat.sub_self, List.getElem?_cons_zero,
        Option.some.injEq] at hm
      subst hm
      refine ⟨?_, hne, ?_, ?_, ht4, ?_, ?_, ?_, ?_, ?_, ?_, ?_, ?_, ?_, ?_⟩ <;>
        (first | rw [hrow] | rw [htx]) <;> simp only [upd_same, rawMod]
      · exact r1
      · exact r2
      · exact r3
      · rw [r4]; exact hr4
      · exact r5
      · exact r6
      · exact r7
      · intro o _; rw [r8]
      · intro o ho; simp [cnfgTx_id, ho]
      · intro o ho; simp [cnfgTx_dlc, ho]
      · intro _ o ho; rw [cnfgTx_last, if_neg (by omega)]; omega
      · simp [r9, r4]
      · simp [r10]
  · intro i hi
    simp at hi
    rw [hrow, upd_other _ _ (by omega)]
    exact h.free i (by omega)
  · intro p
    rw [htx, cnfgTx_reg, setBits_bit _ _ _ _ ht4 (by omega)]
    simp only [Bool.or_eq_true, h.bits, decide_eq_true_eq]
    constructor
    · rintro (⟨m, hm, hon, hp⟩ | ⟨ha, hb⟩)
      · refine ⟨m, ?_, hon, hp⟩
        rw [List.getElem?_append_left (List.getElem?_eq_some_iff.1 hm).1]; exact hm
      · refine ⟨rawMod tpl nr tx, ?_, rfl, ?_⟩
        · rw [show p / 4 = t.mods.length by omega]; simp
        · show p % 4 < tpl.txObj; omega
    · rintro ⟨m, hm, hon, hp⟩
      by_cases hi : p / 4 < t.mods.length
      · rw [List.getElem?_append_left hi] at hm
        exact .inl ⟨m, hm, hon, hp⟩
      · have hi2 : p / 4 = t.mods.length := by
          have := (List.getElem?_eq_some_iff.1 hm).1
          simp at this; omega
        rw [hi2] at hm
        simp only [List.getElem?_append_right (Nat.le_refl _), Nat.sub_self,
          List.getElem?_cons_zero, Option.some.injEq] at hm
        subst hm
        right
        have : p % 4 < tpl.txObj := hp
        omega

/-- `can_config_set_module` in a free row -/
theorem SimQ.setModule {env : Env} {n : Node} {t : Table} (h : SimQ Q env n t) (h8 : env.maxMod ≤ 8)
    (hl : t.mods.length < env.maxMod) (tpl : Row) (nr : Nat) (rx tx : Nat → Nat)
    (hne : tpl.typ ≠ []) (ht4 : tpl.txObj ≤ 4) (hr4 : tpl.rxObj ≤ 4) :
    let r := setModule env n t.mods.length tpl nr rx tx
    SimQ Q env r.1 ⟨t.mods ++
      [{ rawMod tpl (effNr t.mods.length nr) tx with
         conv := if r.2 = E.ok then if t.awake t.mods.length = 1 then tpl.txMain else fun _ => .dummy
                 else tpl.txMainSync
         on := !decide (r.2 = E.ok) || decide (t.awake t.mods.length = 1) }], t.awake⟩ := by
  intro r
  have hset : setTx env (n.fillRow t.mods.length tpl (effNr t.mods.length nr) rx tx)
      t.mods.length (effNr t.mods.length nr) = _ :=
    setTx_eq env _ _ _ hl (by simpa [fillRow, setRow] using ht4)
  -- whatever happens afterwards, the raw module is in the table
  have key : ∀ n', RxOnly t.mods.length
      ((setTx env (n.fillRow t.mods.length tpl (effNr t.mods.length nr) rx tx)
        t.mods.length (effNr t.mods.length nr)).1.setRow t.mods.length
          fun r => { r with rxObjSync := r.rxObj }) n' →
      SimQ Q env n' ⟨t.mods ++ [rawMod tpl (effNr t.mods.length nr) tx], t.awake⟩ := by
    rintro n' ⟨hw, u, c, s, d, m, rfl⟩
    rw [hset]
    refine syncTx_append h h8 hl tpl _ _ tx hne ht4 hr4
      (by simp only [fillRow, setRow, upd_upd]; rfl) rfl ?_ ?_ ?_ ?_ ?_ ?_ ?_ ?_ ?_ ?_ ?_ <;>
      simp [fillRow, setRow]
  have hr : r = LiCan.Node.setModule env n t.mods.length tpl nr rx tx := rfl
  simp only [LiCan.Node.setModule] at hr
  rw [hset, thenOk_ok] at hr
  generalize hn1 : (setTx env (n.fillRow t.mods.length tpl (effNr t.mods.length nr) rx tx)
        t.mods.length (effNr t.mods.length nr)).1 = n1 at key
  rw [hset] at hn1
  simp only at hn1
  rw [hn1] at hr
  have hrx := setRx_rxOnly env n1 t.mods.length (effNr t.mods.length nr)
  generalize hq : setRx env n1 t.mods.length (effNr t.mods.length nr) = q at hr hrx
  obtain ⟨n2, e2⟩ := q
  by_cases he2 : e2 = E.ok
  · subst he2
    rw [thenOk_ok] at hr
    rw [finish_eq] at hr
    have hfh := finishHw_hwOnly env n2 n2.nrMod (effNr t.mods.length nr)
      ((List.range (t.mods.length + 1)).map fun i => (n2.rows i).nr)
    generalize hq3 : finishHw env n2 n2.nrMod (effNr t.mods.length nr)
      ((List.range (t.mods.length + 1)).map fun i => (n2.rows i).nr) = q3 at hr hfh
    obtain ⟨n3, e3⟩ := q3
    have s3 := key n3 (hrx.trans (hfh.rxOnly _))
    by_cases he3 : e3 = E.ok
    · subst he3
      rw [thenOk_ok] at hr
      have s4 := s3.silentAwake h8 t.mods.length (n3.silent t.mods.length) true
      have hsil : n3.silent = t.awake := s3.awake
      have e1 : r.1.rows = (setSilentAwake env n3 t.mods.length (n3.silent t.mods.length)).1.rows := by
        rw [hr]
      have e2 : r.1.silent = (setSilentAwake env n3 t.mods.length (n3.silent t.mods.length)).1.silent := by
        rw [hr]
      have e3 : r.1.tx = (setSilentAwake env n3 t.mods.length (n3.silent t.mods.length)).1.tx := by
        rw [hr]
      have e4 : r.2 = (setSilentAwake env n3 t.mods.length (n3.silent t.mods.length)).2 := by
        rw [hr]
      have s5 := s4.1.congr e1 e2 e3
      rw [s4.2] at e4
      simp only [Table.step, show ¬ env.maxMod ≤ t.mods.length from by omega, if_false, hsil] at s5 e4
      have hself : upd t.awake t.mods.length (t.awake t.mods.length) = t.awake := upd_self _ _
      by_cases h0 : t.awake t.mods.length = 0
      · simp only [h0, if_true] at e4 s5
        rw [← h0, hself] at s5
        have hsw : switch (t.mods ++ [rawMod tpl (effNr t.mods.length nr) tx]) t.mods.length false =
            t.mods ++ [{ rawMod tpl (effNr t.mods.length nr) tx with on := false, conv := fun _ => .dummy }] := by
          rw [switch_append]; rfl
        simp only [e4, h0, if_true, decide_true, Bool.not_true, Bool.false_or]
        have s6 : SimQ Q env r.1 ⟨switch (t.mods ++ [rawMod tpl (effNr t.mods.length nr) tx]) t.mods.length false, t.awake⟩ := s5
        rw [hsw] at s6
        exact s6
      · simp only [h0, if_false] at e4 s5
        by_cases h1 : t.awake t.mods.length = 1
        · simp only [h1, if_true] at e4 s5
          rw [← h1, hself] at s5
          have hsw : switch (t.mods ++ [rawMod tpl (effNr t.mods.length nr) tx]) t.mods.length true =
              t.mods ++ [{ rawMod tpl (effNr t.mods.length nr) tx with on := true, conv := tpl.txMain }] := by
            rw [switch_append]; rfl
          simp only [e4, h1, if_true, decide_true, Bool.not_true, Bool.false_or]
          have s6 : SimQ Q env r.1 ⟨switch (t.mods ++ [rawMod tpl (effNr t.mods.length nr) tx]) t.mods.length true, t.awake⟩ := s5
          rw [hsw] at s6
          exact s6
        · simp only [h1, if_false] at e4 s5
          rw [hself] at s5
          have hne' : ¬ (E.invalidSilentAwake = E.ok) := by decide
          simp only [e4, hne', if_false, decide_false, Bool.not_false, Bool.true_or]
          exact s5
    · have hte : thenOk (n3, e3) (fun n => setSilentAwake env n t.mods.length (n.silent t.mods.length)) = (n3, e3) := by
        simp [thenOk, he3]
      rw [hte] at hr
      have e4 : r.2 = e3 := by rw [hr]
      simp only [e4, he3, if_false, decide_false, Bool.not_false, Bool.true_or]
      exact s3.congr (by rw [hr]) (by rw [hr]) (by rw [hr])
  · have hte : ∀ f, thenOk (n2, e2) f = (n2, e2) := by
      intro f; simp [thenOk, he2]
    rw [hte] at hr
    have e4 : r.2 = e2 := by rw [hr]
    simp only [e4, he2, if_false, decide_false, Bool.not_false, Bool.true_or]
    exact (key n2 hrx).congr (by rw [hr]) (by rw [hr]) (by rw [hr])

theorem report_rows (env : Env) (n : Node) (e : Err) : (report env n e).rows = n.rows := by
  unfold report; split <;> rfl
theorem report_silent (env : Env) (n : Node) (e : Err) : (report env n e).silent = n.silent := by
  unfold report; split <;> rfl
theorem report_tx (env : Env) (n : Node) (e : Err) : (report env n e).tx = n.tx := by
  unfold report; split <;> rfl

/-- the first free row -/
theorem SimQ.freeRow {env : Env} {n : Node} {t : Table} (h : SimQ Q env n t) :
    ((List.range env.maxMod).find? fun i => (n.rows i).typ = []) =
      if t.mods.length = env.maxMod then none else some t.mods.length := by
  have hl := h.len
  split
  · next he =>
    rw [List.find?_eq_none]
    intro i hi
    simp at hi
    have r := h.row i (t.mods[i]'(by omega)) (by simp)
    simp [r.typ, r.ne]
  · rw [List.find?_range_eq_some]
    refine ⟨by simp [(h.free _ (Nat.le_refl _)).1], by simp; omega, ?_⟩
    intro j hj
    have r := h.row j t.mods[j] (by simp [hj])
    simp [r.typ, r.ne]

theorem SimQ.dup {env : Env} {n : Node} {t : Table} (h : SimQ Q env n t) (nr : Nat) :
    ((List.range t.mods.length).any fun j => (n.rows j).nr = nr) =
      t.mods.any fun m => m.nr = nr := by
  rw [Bool.eq_iff_iff, List.any_eq_true, List.any_eq_true]
  constructor
  · rintro ⟨j, hj, e⟩
    simp at hj e
    exact ⟨t.mods[j], List.getElem_mem hj, by rw [← (h.row j t.mods[j] (by simp [hj])).nr]; simpa using e⟩
  · rintro ⟨m, hm, e⟩
    obtain ⟨j, hj, rfl⟩ := List.mem_iff_getElem.1 hm
    exact ⟨j, by simpa using hj, by rw [(h.row j t.mods[j] (by simp [hj])).nr]; exact e⟩

theorem SimQ.add {env : Env} {n : Node} {t : Table} (h : SimQ Q env n t) (h8 : env.maxMod ≤ 8)
    (tpl : Row) (nr : Nat) (rx tx : Nat → Nat) (hb : Basic (.add tpl nr rx tx)) :
    let ok := decide (regErr env n tpl nr rx tx = E.ok)
    SimQ Q env (addModule env n tpl nr rx tx).1 (t.step env.maxMod ok (.add tpl nr rx tx)).1 ∧
    (addModule env n tpl nr rx tx).2 = (t.step env.maxMod ok (.add tpl nr rx tx)).2 := by
  obtain ⟨hne, ht4, hr4⟩ := hb
  intro ok
  have hok : ok = decide (regErr env n tpl nr rx tx = E.ok) := rfl
  clear_value ok
  simp only [addModule, regErr, Table.step, h.freeRow] at hok ⊢
  by_cases hl : t.mods.length = env.maxMod
  · simp only [hl, if_true]; exact ⟨h, trivial⟩
  · simp only [hl, if_false] at hok ⊢
    have hl' : t.mods.length < env.maxMod := by have := h.len; omega
    simp only [h.dup] at hok ⊢
    have fin : ∀ (k : Nat), effNr t.mods.length k = newNr t.mods nr →
        ok = decide ((LiCan.Node.setModule env n t.mods.length tpl k rx tx).2 = E.ok) →
        SimQ Q env (report env (LiCan.Node.setModule env n t.mods.length tpl k rx tx).1
            (LiCan.Node.setModule env n t.mods.length tpl k rx tx).2)
          ⟨t.mods ++
            [{ typ := tpl.typ, nr := newNr t.mods nr, txObj := tpl.txObj, txDlc := tpl.txDlc
               tx := tx, main := tpl.txMain
               conv := if ok then if t.awake t.mods.length = 1 then tpl.txMain else fun _ => .dummy
                       else tpl.txMainSync
               on := !ok || t.awake t.mods.length = 1 }], t.awake⟩ := by
      intro k heff hok
      have hs := h.setModule h8 hl' tpl k rx tx hne ht4 hr4
      simp only [heff] at hs
      have := hs.congr (report_rows env _ (LiCan.Node.setModule env n t.mods.length tpl k rx tx).2)
        (report_silent env _ _) (report_tx env _ _)
      simpa only [hok, rawMod, decide_eq_true_eq] using this
    cases hd : (t.mods.any fun m => decide (m.nr = nr)) with
    | true =>
      simp only [hd, if_true] at hok ⊢
      refine ⟨fin _ ?_ hok, trivial⟩
      simp only [effNr, newNr, hd, true_or, if_true, u16]; split <;> omega
    | false =>
      simp only [hd, Bool.false_eq_true, if_false] at hok ⊢
      refine ⟨fin _ ?_ hok, trivial⟩
      simp only [effNr, newNr, hd, u16, Bool.false_eq_true, false_or]
      by_cases h1 : 124 < nr ∨ nr < 2
      · rw [if_pos h1, if_pos (Or.comm.1 h1)]; omega
      · rw [if_neg h1, if_neg fun e => h1 (Or.comm.1 e)]

end Node
end LiCan
