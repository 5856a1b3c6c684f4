import Verif.Lemmas.Renum
import Verif.Spec.Restart
/-! # The module table over several initializations refines its specification -/
namespace LiCan
open Spec
namespace Node

/-- Simulation: as `SimQ`, but the send register has more places in use than those of the registered modules, and
the rows not registered are not empty. -/
structure SimG (env : Env) (n : Node) (t : Table) (left : Nat → Bool) : Prop where
  len   : t.mods.length ≤ env.maxMod
  awake : n.silent = t.awake
  row   : ∀ i m, t.mods[i]? = some m → RowOk True n i m
  free  : ∀ i, t.mods.length ≤ i → (n.rows i).typ = []
  bits  : ∀ p, n.tx.reg.getLsbD p = true ↔ Due t p ∨ left p = true
  apart : ∀ p, left p = true → ¬ Covered t.mods p

theorem SimG.congr {env : Env} {n n' : Node} {t : Table} {left : Nat → Bool} (h : SimG env n t left)
    (hr : n'.rows = n.rows) (hs : n'.silent = n.silent) (ht : n'.tx = n.tx) : SimG env n' t left := by
  obtain ⟨h1, h2, h3, h4, h5, h6⟩ := h
  refine ⟨h1, by rw [hs, h2], fun i m hm => ?_, by rw [hr]; exact h4, by rw [ht]; exact h5, h6⟩
  obtain ⟨a, b, c, d, e, e', f, g, h, i', j, k, l, l', l''⟩ := h3 i m hm
  exact ⟨by rw [hr]; exact a, b, by rw [hr]; exact c, by rw [hr]; exact d, e, by rw [hr]; exact e',
    by rw [hr]; exact f, by rw [hr]; exact g, by rw [hr]; exact h, by rw [hr]; exact i',
    by rw [ht]; exact j, by rw [ht]; exact k, by rw [ht]; exact l, by rw [hr]; exact l',
    by rw [hr]; exact l''⟩

theorem covered_switch (l : List Mod) (tp p : Nat) (b : Bool) : Covered (switch l tp b) p ↔ Covered l p := by
  unfold Covered
  rw [switch_get]
  constructor
  · rintro ⟨m, hm, hp⟩
    simp only [Option.map_eq_some_iff] at hm
    obtain ⟨m0, hm0, rfl⟩ := hm
    refine ⟨m0, hm0, ?_⟩
    split at hp
    · split at hp <;> exact hp
    · exact hp
  · rintro ⟨m, hm, hp⟩
    rw [hm]
    refine ⟨_, rfl, ?_⟩
    split
    · split <;> exact hp
    · exact hp

theorem SimG.on {env : Env} {n : Node} {t : Table} {left : Nat → Bool} (h : SimG env n t left) (h8 : env.maxMod ≤ 8)
    (tp : Nat) (htp : tp < t.mods.length) :
    SimG env (syncOn n tp) { t with mods := switch t.mods tp true } left := by
  have h8' : tp < 8 := by have := h.len; omega
  rw [syncOn_eq]
  refine ⟨by simpa [switch_length] using h.len, h.awake, ?_, ?_, ?_, fun p hp hc => h.apart p hp ((covered_switch _ _ _ _).1 hc)⟩
  · intro i m hm
    simp only [switch_get, Option.map_eq_some_iff] at hm
    obtain ⟨m0, hm0, rfl⟩ := hm
    have r := h.row i m0 hm0
    by_cases hi : tp = i
    · subst hi
      simp only [↓reduceIte]
      refine ⟨?_, r.ne, ?_, ?_, r.tx4, ?_, ?_, ?_, ?_, ?_, r.id, r.dlc, r.last, ?_, ?_⟩ <;>
        simp only [upd_same, onRow]
      · exact r.typ
      · exact r.nr
      · exact r.txObj
      · exact r.rx4
      · exact r.txDlc
      · exact r.tx
      · exact r.main
      · intro o ho
        simp only [first, r.txObj, ho, if_true, r.main]
      · simp
      · simp [r.txObj]
    · have hi' : i ≠ tp := fun e => hi e.symm
      simp only [hi, if_false]
      obtain ⟨a, b, c, d, e, e', f, g, h, i', j, k, l, l', l''⟩ := r
      constructor <;> (try simp only [upd_other _ _ hi']) <;> assumption
  · intro i hi
    simp only [switch_length] at hi
    simp only [upd_other _ _ (show i ≠ tp by omega)]
    exact h.free i hi
  · intro p
    have r := h.row tp t.mods[tp] (by simp [htp])
    have r4 := r.tx4
    have rt := r.txObj
    simp only [setBits_bit _ _ _ _ (show (n.rows tp).txObj ≤ 4 by omega) h8', Bool.or_eq_true, decide_eq_true_eq, h.bits, Due, switch_get]
    constructor
    · rintro ((⟨m, hm, hon, hp⟩ | hl) | ⟨ha, hb⟩)
      · left
        by_cases e : tp = p / 4
        · exact ⟨{ m with on := true, conv := m.main }, by simp [hm, e], rfl, hp⟩
        · exact ⟨m, by simp [hm, e], hon, hp⟩
      · exact .inr hl
      · left
        have e : tp = p / 4 := by omega
        refine ⟨{ t.mods[tp] with on := true, conv := t.mods[tp].main }, ?_, rfl, ?_⟩
        · subst e; simp [htp]
        · show p % 4 < t.mods[tp].txObj; omega
    · rintro (⟨m, hm, hon, hp⟩ | hl)
      · simp only [Option.map_eq_some_iff] at hm
        obtain ⟨m0, hm0, rfl⟩ := hm
        by_cases e : tp = p / 4
        · right
          simp only [e, if_true] at hp
          subst e
          have r := h.row _ m0 hm0
          have hx : p % 4 < m0.txObj := hp
          have := r.txObj
          omega
        · left; left
          simp only [e, if_false] at hon hp
          exact ⟨m0, hm0, hon, hp⟩
      · exact .inl (.inr hl)

/-- switching a row off -/
theorem SimG.off {env : Env} {n : Node} {t : Table} {left : Nat → Bool} (h : SimG env n t left) (h8 : env.maxMod ≤ 8)
    (tp : Nat) (htp : tp < t.mods.length) :
    SimG env (syncOff env n tp) { t with mods := switch t.mods tp false } left := by
  have h8' : tp < 8 := by have := h.len; omega
  obtain ⟨mm, u, he⟩ := syncOff_eq env n tp
  rw [he]
  refine ⟨by simpa [switch_length] using h.len, h.awake, ?_, ?_, ?_, fun p hp hc => h.apart p hp ((covered_switch _ _ _ _).1 hc)⟩
  · intro i m hm
    simp only [switch_get, Option.map_eq_some_iff] at hm
    obtain ⟨m0, hm0, rfl⟩ := hm
    have r := h.row i m0 hm0
    by_cases hi : tp = i
    · subst hi
      simp only [↓reduceIte, Bool.false_eq_true]
      refine ⟨?_, r.ne, ?_, ?_, r.tx4, ?_, ?_, ?_, ?_, ?_, r.id, r.dlc, r.last, ?_, ?_⟩ <;>
        simp only [upd_same, offRow]
      · exact r.typ
      · exact r.nr
      · exact r.txObj
      · exact r.rx4
      · exact r.txDlc
      · exact r.tx
      · exact r.main
      · intro o ho
        simp only [first, r.txObj, ho, if_true]
      · simp
      · simp
    · have hi' : i ≠ tp := fun e => hi e.symm
      simp only [hi, if_false]
      obtain ⟨a, b, c, d, e, e', f, g, h, i', j, k, l, l', l''⟩ := r
      constructor <;> (try simp only [upd_other _ _ hi']) <;> assumption
  · intro i hi
    simp only [switch_length] at hi
    simp only [upd_other _ _ (show i ≠ tp by omega)]
    exact h.free i hi
  · intro p
    have r := h.row tp t.mods[tp] (by simp [htp])
    have r4 := r.tx4
    have rt := r.txObj
    simp only [clearBits_bit _ _ _ _ (show (n.rows tp).txObj ≤ 4 by omega) h8', Bool.and_eq_true, Bool.not_eq_true',
      decide_eq_false_iff_not, h.bits, Due, switch_get]
    constructor
    · rintro ⟨⟨m, hm, hon, hp⟩ | hl, hn⟩
      · have e : tp ≠ p / 4 := by
          rintro rfl
          have r := h.row _ m hm
          have := r.txObj
          omega
        exact .inl ⟨m, by simp [hm, e], hon, hp⟩
      · exact .inr hl
    · rintro (⟨m, hm, hon, hp⟩ | hl)
      · simp only [Option.map_eq_some_iff] at hm
        obtain ⟨m0, hm0, rfl⟩ := hm
        by_cases e : tp = p / 4
        · simp [e] at hon
        · simp only [e, if_false] at hon hp
          exact ⟨.inl ⟨m0, hm0, hon, hp⟩, by omega⟩
      · refine ⟨.inr hl, fun hb => h.apart p hl ⟨t.mods[tp], ?_, ?_⟩⟩
        · rw [show p / 4 = tp by omega]; simp [htp]
        · omega

theorem SimG.silentAwake {env : Env} {n : Node} {t : Table} {left : Nat → Bool} (h : SimG env n t left) (h8 : env.maxMod ≤ 8)
    (tp st : Nat) (ok : Bool) (hreg : tp < t.mods.length ∨ env.maxMod ≤ tp) :
    SimG env (setSilentAwake env n tp st).1 (t.step env.maxMod ok (.silentAwake tp st)).1 left ∧
    (setSilentAwake env n tp st).2 = (t.step env.maxMod ok (.silentAwake tp st)).2 := by
  simp only [setSilentAwake, Table.step]
  by_cases htp : tp < env.maxMod
  · have hreg : tp < t.mods.length := by omega
    have h1 : SimG env { n with silent := upd n.silent tp st
                                log := .silentCb tp (n.rows tp).nr st :: n.log }
        ⟨t.mods, upd t.awake tp st⟩ left := by
      have h2 := h
      obtain ⟨a, b, c, d, e, x⟩ := h2
      refine ⟨a, by rw [b], fun i m hm => ?_, d, e, x⟩
      obtain ⟨a, b, c, d, e, e', f, g, h, i', j, k, l, l', l''⟩ := c i m hm
      exact ⟨a, b, c, d, e, e', f, g, h, i', j, k, l, l', l''⟩
    simp only [htp, if_true, show ¬ env.maxMod ≤ tp from by omega, if_false]
    by_cases h0 : st = 0
    · subst h0; simp only [if_true]
      exact ⟨h1.off h8 tp hreg, trivial⟩
    · simp only [h0, if_false]
      by_cases h01 : st = 1
      · subst h01; simp only [if_true]
        exact ⟨h1.on h8 tp hreg, trivial⟩
      · simp only [h01, if_false]
        exact ⟨h1, trivial⟩
  · simp only [htp, if_false, show env.maxMod ≤ tp from by omega, if_true]
    exact ⟨h, trivial⟩

theorem SimG.find {env : Env} {n : Node} {t : Table} {left : Nat → Bool} (h : SimG env n t left) (q : Row → Bool) (q' : Mod → Bool)
    (hq : ∀ i m, t.mods[i]? = some m → q (n.rows i) = q' m)
    (hf : ∀ i, t.mods.length ≤ i → q (n.rows i) = false) :
    (List.range env.maxMod).find? (fun i => q (n.rows i)) = t.mods.findIdx? q' := by
  cases hx : t.mods.findIdx? q' with
  | none =>
    rw [List.find?_eq_none]
    intro i _
    by_cases hl : i < t.mods.length
    · have := List.findIdx?_eq_none_iff.1 hx t.mods[i] (List.getElem_mem hl)
      rw [hq i t.mods[i] (by simp [hl]), this]; simp
    · rw [hf i (by omega)]; simp
  | some k =>
    obtain ⟨hk, hq1, hq2⟩ := List.findIdx?_eq_some_iff_getElem.1 hx
    rw [List.find?_range_eq_some]
    refine ⟨?_, ?_, ?_⟩
    · rw [hq k t.mods[k] (by simp [hk])]; exact hq1
    · have := h.len; simp only [List.mem_range]; omega
    · intro j hj
      rw [hq j (t.mods[j]'(by omega)) (by simp)]
      simpa using hq2 j hj

theorem SimG.findTypeNr {env : Env} {n : Node} {t : Table} {left : Nat → Bool} (h : SimG env n t left) (typ : List Byte)
    (nr : Nat) (hne : typ ≠ []) :
    n.findTypeNr env typ nr = t.mods.findIdx? fun m => m.typ = typ ∧ m.nr = nr := by
  refine h.find (fun r => decide (r.typ = typ ∧ r.nr = nr)) _ ?_ ?_
  · intro i m hm; rw [(h.row i m hm).typ, (h.row i m hm).nr]
  · intro i hi; rw [h.free i hi]; simp [Ne.symm hne]

theorem SimG.findType {env : Env} {n : Node} {t : Table} {left : Nat → Bool} (h : SimG env n t left) (typ : List Byte)
    (hne : typ ≠ []) :
    n.findType env typ = t.mods.findIdx? fun m => m.typ = typ := by
  refine h.find (fun r => decide (r.typ = typ)) _ ?_ ?_
  · intro i m hm; rw [(h.row i m hm).typ]
  · intro i hi; rw [h.free i hi]; simp [Ne.symm hne]

theorem SimG.silentAwakeBy {env : Env} {n : Node} {t : Table} {left : Nat → Bool} (h : SimG env n t left) (h8 : env.maxMod ≤ 8)
    (typ : List Byte) (nr st : Nat) (ok : Bool) (hne : typ ≠ []) :
    SimG env (setSilentAwakeBy env n typ nr st).1 (t.step env.maxMod ok (.silentAwakeBy typ nr st)).1 left ∧
    (setSilentAwakeBy env n typ nr st).2 = (t.step env.maxMod ok (.silentAwakeBy typ nr st)).2 := by
  simp only [setSilentAwakeBy, Table.step, h.findTypeNr typ nr hne]
  cases hx : t.mods.findIdx? fun m => m.typ = typ ∧ m.nr = nr with
  | none => exact ⟨h, rfl⟩
  | some k =>
    have hk : ¬ env.maxMod ≤ k := by have := findIdx?_lt hx; have := h.len; omega
    have := h.silentAwake h8 k st ok (.inl (findIdx?_lt hx))
    simpa only [Table.step, hk, if_false] using this

theorem SimG.active {env : Env} {n : Node} {t : Table} {left : Nat → Bool} (h : SimG env n t left) (h8 : env.maxMod ≤ 8)
    (typ : List Byte) (ok : Bool) (hne : typ ≠ []) :
    SimG env (setActive env n typ).1 (t.step env.maxMod ok (.setActive typ)).1 left ∧
    (setActive env n typ).2 = (t.step env.maxMod ok (.setActive typ)).2 := by
  simp only [setActive, Table.step, h.findType typ hne]
  cases hx : t.mods.findIdx? fun m => m.typ = typ with
  | none => exact ⟨h, rfl⟩
  | some k => exact ⟨h.on h8 k (findIdx?_lt hx), rfl⟩

theorem SimG.critical {env : Env} {n : Node} {t : Table} {left : Nat → Bool} (h : SimG env n t left) (h8 : env.maxMod ≤ 8)
    (typ : List Byte) (ok : Bool) (hne : typ ≠ []) :
    SimG env (setCritical env n typ).1 (t.step env.maxMod ok (.setCritical typ)).1 left ∧
    (setCritical env n typ).2 = (t.step env.maxMod ok (.setCritical typ)).2 := by
  simp only [setCritical, Table.step, h.findType typ hne]
  cases hx : t.mods.findIdx? fun m => m.typ = typ with
  | none => exact ⟨h, rfl⟩
  | some k => exact ⟨h.off h8 k (findIdx?_lt hx), rfl⟩

theorem syncTx_appendG {env : Env} {n n' : Node} {t : Table} {left : Nat → Bool} (h : SimG env n t left) (h8 : env.maxMod ≤ 8)
    (hl : t.mods.length < env.maxMod) (tpl r : Row) (nr : Nat) (tx : Nat → Nat)
    (hne : tpl.typ ≠ []) (ht4 : tpl.txObj ≤ 4) (hr4 : tpl.rxObj ≤ 4)
    (hrow : n'.rows = upd n.rows t.mods.length r) (hsil : n'.silent = n.silent)
    (htx : n'.tx = cnfgTx n.tx tpl.txDlc t.mods.length nr tpl.txObj)
    (r1 : r.typ = tpl.typ) (r2 : r.nr = nr) (r3 : r.txObj = tpl.txObj) (r4 : r.rxObj = tpl.rxObj)
    (r5 : r.txDlc = tpl.txDlc) (r6 : r.tx = tx) (r7 : r.txMain = tpl.txMain)
    (r8 : r.txMainSync = tpl.txMainSync) (r9 : r.rxObjSync = tpl.rxObj) (r10 : r.txObjSync = tpl.txObj) :
    SimG env n' ⟨t.mods ++ [rawMod tpl nr tx], t.awake⟩ (fun p => left p && !decide (Covered (t.mods ++ [rawMod tpl nr tx]) p)) := by
  refine ⟨by simp; omega, by rw [hsil, h.awake], ?_, ?_, ?_, fun p hp => by simp at hp; exact hp.2⟩
  · intro i m hm
    by_cases hi : i < t.mods.length
    · rw [List.getElem?_append_left hi] at hm
      have ro := h.row i m hm
      have hi' : i ≠ t.mods.length := by omega
      have hrw : n'.rows i = n.rows i := by rw [hrow, upd_other _ _ hi']
      obtain ⟨a, b, c, d, e, e', f, g, h, i', j, k, l, l', l''⟩ := ro
      refine ⟨by rw [hrw]; exact a, b, by rw [hrw]; exact c, by rw [hrw]; exact d, e,
        by rw [hrw]; exact e', by rw [hrw]; exact f, by rw [hrw]; exact g, by rw [hrw]; exact h,
        by rw [hrw]; exact i', ?_, ?_, ?_, by rw [hrw]; exact l', by rw [hrw]; exact l''⟩
      · intro o ho; rw [htx, cnfgTx_id]; simp only [hi', false_and, if_false]; exact j o ho
      · intro o ho; rw [htx, cnfgTx_dlc]; simp only [hi', false_and, if_false]; exact k o ho
      · intro hq o ho; rw [htx, cnfgTx_last]
        split
        · exact l hq o ho
        · omega
    · have hi2 : i = t.mods.length := by
        have := (List.getElem?_eq_some_iff.1 hm).1
        simp at this; omega
      subst hi2
      simp only [List.getElem?_append_right (Nat.le_refl _), Nat.sub_self, List.getElem?_cons_zero,
        Option.some.injEq] at hm
      subst hm
      refine ⟨?_, hne, ?_, ?_, ht4, ?_, ?_, ?_, ?_, ?_, ?_, ?_, ?_, ?_, ?_⟩ <;>
        (first | rw [hrow] | rw [htx]) <;> simp only [upd_same, rawMod]
      · exact r1
      · exact r2
      · exact r3
      · rw [r4]; exact hr4
      · exact r5
      · exact r6
      · exact r7
      · intro o _; rw [r8]
      · intro o ho; simp [cnfgTx_id, ho]
      · intro o ho; simp [cnfgTx_dlc, ho]
      · intro _ o ho; rw [cnfgTx_last, if_neg (by omega)]; omega
      · simp [r9, r4]
      · simp [r10]
  · intro i hi
    simp at hi
    rw [hrow, upd_other _ _ (by omega)]
    exact h.free i (by omega)
  · intro p
    rw [htx, cnfgTx_reg, setBits_bit _ _ _ _ ht4 (by omega)]
    simp only [Bool.or_eq_true, h.bits, decide_eq_true_eq, Bool.and_eq_true, Bool.not_eq_true', decide_eq_false_iff_not, Due]
    constructor
    · rintro ((⟨m, hm, hon, hp⟩ | hl) | ⟨ha, hb⟩)
      · refine .inl ⟨m, ?_, hon, hp⟩
        rw [List.getElem?_append_left (List.getElem?_eq_some_iff.1 hm).1]; exact hm
      · by_cases hc : Covered (t.mods ++ [rawMod tpl nr tx]) p
        · left
          obtain ⟨m, hm, hp⟩ := hc
          by_cases hi : p / 4 < t.mods.length
          · rw [List.getElem?_append_left hi] at hm
            exact absurd ⟨m, hm, hp⟩ (h.apart p hl)
          · have hi2 : p / 4 = t.mods.length := by
              have := (List.getElem?_eq_some_iff.1 hm).1
              simp at this; omega
            refine ⟨m, hm, ?_, hp⟩
            rw [hi2] at hm
            simp only [List.getElem?_append_right (Nat.le_refl _), Nat.sub_self, List.getElem?_cons_zero, Option.some.injEq] at hm
            subst hm; rfl
        · exact .inr ⟨hl, hc⟩
      · refine .inl ⟨rawMod tpl nr tx, ?_, rfl, ?_⟩
        · rw [show p / 4 = t.mods.length by omega]; simp
        · show p % 4 < tpl.txObj; omega
    · intro hx
      rcases hx.symm with ⟨hl, -⟩ | ⟨m, hm, hon, hp⟩
      · exact .inl (.inr hl)
      by_cases hi : p / 4 < t.mods.length
      · rw [List.getElem?_append_left hi] at hm
        exact .inl (.inl ⟨m, hm, hon, hp⟩)
      · have hi2 : p / 4 = t.mods.length := by
          have := (List.getElem?_eq_some_iff.1 hm).1
          simp at this; omega
        rw [hi2] at hm
        simp only [List.getElem?_append_right (Nat.le_refl _), Nat.sub_self,
          List.getElem?_cons_zero, Option.some.injEq] at hm
        subst hm
        right
        have : p % 4 < tpl.txObj := hp
        omega

theorem SimG.setModule {env : Env} {n : Node} {t : Table} {left : Nat → Bool} (h : SimG env n t left) (h8 : env.maxMod ≤ 8)
    (hl : t.mods.length < env.maxMod) (tpl : Row) (nr : Nat) (rx tx : Nat → Nat)
    (hne : tpl.typ ≠ []) (ht4 : tpl.txObj ≤ 4) (hr4 : tpl.rxObj ≤ 4) :
    let r := setModule env n t.mods.length tpl nr rx tx
    SimG env r.1 ⟨t.mods ++
      [{ rawMod tpl (effNr t.mods.length nr) tx with
         conv := if r.2 = E.ok then if t.awake t.mods.length = 1 then tpl.txMain else fun _ => .dummy
                 else tpl.txMainSync
         on := !decide (r.2 = E.ok) || decide (t.awake t.mods.length = 1) }], t.awake⟩
      (fun p => left p && !decide (Covered (t.mods ++ [rawMod tpl (effNr t.mods.length nr) tx]) p)) := by
  intro r
  have hset : setTx env (n.fillRow t.mods.length tpl (effNr t.mods.length nr) rx tx)
      t.mods.length (effNr t.mods.length nr) = _ :=
    setTx_eq env _ _ _ hl (by simpa [fillRow, setRow] using ht4)
  -- whatever happens afterwards, the raw module is in the table
  have key : ∀ n', RxOnly t.mods.length
      ((setTx env (n.fillRow t.mods.length tpl (effNr t.mods.length nr) rx tx)
        t.mods.length (effNr t.mods.length nr)).1.setRow t.mods.length
          fun r => { r with rxObjSync := r.rxObj }) n' →
      SimG env n' ⟨t.mods ++ [rawMod tpl (effNr t.mods.length nr) tx], t.awake⟩
        (fun p => left p && !decide (Covered (t.mods ++ [rawMod tpl (effNr t.mods.length nr) tx]) p)) := by
    rintro n' ⟨hw, u, c, s, d, m, rfl⟩
    rw [hset]
    refine syncTx_appendG h h8 hl tpl _ _ tx hne ht4 hr4
      (by simp only [fillRow, setRow, upd_upd]; rfl) rfl ?_ ?_ ?_ ?_ ?_ ?_ ?_ ?_ ?_ ?_ ?_ <;>
      simp [fillRow, setRow]
  have hr : r = LiCan.Node.setModule env n t.mods.length tpl nr rx tx := rfl
  simp only [LiCan.Node.setModule] at hr
  rw [hset, thenOk_ok] at hr
  generalize hn1 : (setTx env (n.fillRow t.mods.length tpl (effNr t.mods.length nr) rx tx)
        t.mods.length (effNr t.mods.length nr)).1 = n1 at key
  rw [hset] at hn1
  simp only at hn1
  rw [hn1] at hr
  have hrx := setRx_rxOnly env n1 t.mods.length (effNr t.mods.length nr)
  generalize hq : setRx env n1 t.mods.length (effNr t.mods.length nr) = q at hr hrx
  obtain ⟨n2, e2⟩ := q
  by_cases he2 : e2 = E.ok
  · subst he2
    rw [thenOk_ok] at hr
    rw [finish_eq] at hr
    have hfh := finishHw_hwOnly env n2 n2.nrMod (effNr t.mods.length nr)
      ((List.range (t.mods.length + 1)).map fun i => (n2.rows i).nr)
    generalize hq3 : finishHw env n2 n2.nrMod (effNr t.mods.length nr)
      ((List.range (t.mods.length + 1)).map fun i => (n2.rows i).nr) = q3 at hr hfh
    obtain ⟨n3, e3⟩ := q3
    have s3 := key n3 (hrx.trans (hfh.rxOnly _))
    by_cases he3 : e3 = E.ok
    · subst he3
      rw [thenOk_ok] at hr
      have s4 := s3.silentAwake h8 t.mods.length (n3.silent t.mods.length) true (.inl (by simp))
      have hsil : n3.silent = t.awake := s3.awake
      have e1 : r.1.rows = (setSilentAwake env n3 t.mods.length (n3.silent t.mods.length)).1.rows := by
        rw [hr]
      have e2 : r.1.silent = (setSilentAwake env n3 t.mods.length (n3.silent t.mods.length)).1.silent := by
        rw [hr]
      have e3 : r.1.tx = (setSilentAwake env n3 t.mods.length (n3.silent t.mods.length)).1.tx := by
        rw [hr]
      have e4 : r.2 = (setSilentAwake env n3 t.mods.length (n3.silent t.mods.length)).2 := by
        rw [hr]
      have s5 := s4.1.congr e1 e2 e3
      rw [s4.2] at e4
      simp only [Table.step, show ¬ env.maxMod ≤ t.mods.length from by omega, if_false, hsil] at s5 e4
      have hself : upd t.awake t.mods.length (t.awake t.mods.length) = t.awake := upd_self _ _
      by_cases h0 : t.awake t.mods.length = 0
      · simp only [h0, if_true] at e4 s5
        rw [← h0, hself] at s5
        have hsw : switch (t.mods ++ [rawMod tpl (effNr t.mods.length nr) tx]) t.mods.length false =
            t.mods ++ [{ rawMod tpl (effNr t.mods.length nr) tx with on := false, conv := fun _ => .dummy }] := by
          rw [switch_append]; rfl
        simp only [e4, h0, if_true, decide_true, Bool.not_true, Bool.false_or]
        have s6 : SimG env r.1 ⟨switch (t.mods ++ [rawMod tpl (effNr t.mods.length nr) tx]) t.mods.length false, t.awake⟩
            (fun p => left p && !decide (Covered (t.mods ++ [rawMod tpl (effNr t.mods.length nr) tx]) p)) := s5
        rw [hsw] at s6
        exact s6
      · simp only [h0, if_false] at e4 s5
        by_cases h1 : t.awake t.mods.length = 1
        · simp only [h1, if_true] at e4 s5
          rw [← h1, hself] at s5
          have hsw : switch (t.mods ++ [rawMod tpl (effNr t.mods.length nr) tx]) t.mods.length true =
              t.mods ++ [{ rawMod tpl (effNr t.mods.length nr) tx with on := true, conv := tpl.txMain }] := by
            rw [switch_append]; rfl
          simp only [e4, h1, if_true, decide_true, Bool.not_true, Bool.false_or]
          have s6 : SimG env r.1 ⟨switch (t.mods ++ [rawMod tpl (effNr t.mods.length nr) tx]) t.mods.length true, t.awake⟩
            (fun p => left p && !decide (Covered (t.mods ++ [rawMod tpl (effNr t.mods.length nr) tx]) p)) := s5
          rw [hsw] at s6
          exact s6
        · simp only [h1, if_false] at e4 s5
          rw [hself] at s5
          have hne' : ¬ (E.invalidSilentAwake = E.ok) := by decide
          simp only [e4, hne', if_false, decide_false, Bool.not_false, Bool.true_or]
          exact s5
    · have hte : thenOk (n3, e3) (fun n => setSilentAwake env n t.mods.length (n.silent t.mods.length)) = (n3, e3) := by
        simp [thenOk, he3]
      rw [hte] at hr
      have e4 : r.2 = e3 := by rw [hr]
      simp only [e4, he3, if_false, decide_false, Bool.not_false, Bool.true_or]
      exact s3.congr (by rw [hr]) (by rw [hr]) (by rw [hr])
  · have hte : ∀ f, thenOk (n2, e2) f = (n2, e2) := by
      intro f; simp [thenOk, he2]
    rw [hte] at hr
    have e4 : r.2 = e2 := by rw [hr]
    simp only [e4, he2, if_false, decide_false, Bool.not_false, Bool.true_or]
    exact (key n2 hrx).congr (by rw [hr]) (by rw [hr]) (by rw [hr])

theorem SimG.freeRow {env : Env} {n : Node} {t : Table} {left : Nat → Bool} (h : SimG env n t left) :
    ((List.range env.maxMod).find? fun i => (n.rows i).typ = []) =
      if t.mods.length = env.maxMod then none else some t.mods.length := by
  have hl := h.len
  split
  · next he =>
    rw [List.find?_eq_none]
    intro i hi
    simp at hi
    have r := h.row i (t.mods[i]'(by omega)) (by simp)
    simp [r.typ, r.ne]
  · rw [List.find?_range_eq_some]
    refine ⟨by simp [h.free _ (Nat.le_refl _)], by simp; omega, ?_⟩
    intro j hj
    have r := h.row j t.mods[j] (by simp [hj])
    simp [r.typ, r.ne]

theorem SimG.dup {env : Env} {n : Node} {t : Table} {left : Nat → Bool} (h : SimG env n t left) (nr : Nat) :
    ((List.range t.mods.length).any fun j => (n.rows j).nr = nr) =
      t.mods.any fun m => m.nr = nr := by
  rw [Bool.eq_iff_iff, List.any_eq_true, List.any_eq_true]
  constructor
  · rintro ⟨j, hj, e⟩
    simp at hj e
    exact ⟨t.mods[j], List.getElem_mem hj, by rw [← (h.row j t.mods[j] (by simp [hj])).nr]; simpa using e⟩
  · rintro ⟨m, hm, e⟩
    obtain ⟨j, hj, rfl⟩ := List.mem_iff_getElem.1 hm
    exact ⟨j, by simpa using hj, by rw [(h.row j t.mods[j] (by simp [hj])).nr]; exact e⟩

theorem SimG.left_congr {env : Env} {n : Node} {t : Table} {left left' : Nat → Bool} (h : SimG env n t left) (e : ∀ p, left p = left' p) :
    SimG env n t left' := by
  have : left = left' := funext e
  exact this ▸ h

theorem covered_append (l : List Mod) (m m' : Mod) (e : m.txObj = m'.txObj) (p : Nat) :
    Covered (l ++ [m]) p ↔ Covered (l ++ [m']) p := by
  have key : ∀ m m' : Mod, m.txObj = m'.txObj → Covered (l ++ [m]) p → Covered (l ++ [m']) p := by
    intro m m' e
    rintro ⟨x, hx, hp⟩
    by_cases hi : p / 4 < l.length
    · rw [List.getElem?_append_left hi] at hx
      exact ⟨x, by rw [List.getElem?_append_left hi]; exact hx, hp⟩
    · have hi2 : p / 4 = l.length := by
        have := (List.getElem?_eq_some_iff.1 hx).1
        simp at this; omega
      refine ⟨m', by rw [hi2]; simp, ?_⟩
      rw [hi2] at hx
      simp only [List.getElem?_append_right (Nat.le_refl _), Nat.sub_self, List.getElem?_cons_zero, Option.some.injEq] at hx
      rw [← e, hx]; exact hp
  exact ⟨key m m' e, key m' m e.symm⟩

theorem SimG.add {env : Env} {n : Node} {t : Table} {left : Nat → Bool} (h : SimG env n t left) (h8 : env.maxMod ≤ 8)
    (tpl : Row) (nr : Nat) (rx tx : Nat → Nat) (hb : Basic (.add tpl nr rx tx)) :
    let ok := decide (regErr env n tpl nr rx tx = E.ok)
    SimG env (addModule env n tpl nr rx tx).1 (t.step env.maxMod ok (.add tpl nr rx tx)).1
      (fun p => left p && !decide (Covered (t.step env.maxMod ok (.add tpl nr rx tx)).1.mods p)) ∧
    (addModule env n tpl nr rx tx).2 = (t.step env.maxMod ok (.add tpl nr rx tx)).2 := by
  obtain ⟨hne, ht4, hr4⟩ := hb
  intro ok
  have hok : ok = decide (regErr env n tpl nr rx tx = E.ok) := rfl
  clear_value ok
  simp only [addModule, regErr, Table.step, h.freeRow] at hok ⊢
  by_cases hl : t.mods.length = env.maxMod
  · simp only [hl, if_true]
    refine ⟨h.left_congr fun p => ?_, trivial⟩
    cases hp : left p with
    | false => rfl
    | true => simp [h.apart p hp]
  · simp only [hl, if_false] at hok ⊢
    have hl' : t.mods.length < env.maxMod := by have := h.len; omega
    simp only [h.dup] at hok ⊢
    have fin : ∀ (k : Nat), effNr t.mods.length k = newNr t.mods nr →
        ok = decide ((LiCan.Node.setModule env n t.mods.length tpl k rx tx).2 = E.ok) →
        SimG env (report env (LiCan.Node.setModule env n t.mods.length tpl k rx tx).1
            (LiCan.Node.setModule env n t.mods.length tpl k rx tx).2)
          ⟨t.mods ++
            [{ typ := tpl.typ, nr := newNr t.mods nr, txObj := tpl.txObj, txDlc := tpl.txDlc
               tx := tx, main := tpl.txMain
               conv := if ok then if t.awake t.mods.length = 1 then tpl.txMain else fun _ => .dummy
                       else tpl.txMainSync
               on := !ok || t.awake t.mods.length = 1 }], t.awake⟩
          (fun p => left p && !decide (Covered (t.mods ++
            [{ typ := tpl.typ, nr := newNr t.mods nr, txObj := tpl.txObj, txDlc := tpl.txDlc
               tx := tx, main := tpl.txMain
               conv := if ok then if t.awake t.mods.length = 1 then tpl.txMain else fun _ => .dummy
                       else tpl.txMainSync
               on := !ok || t.awake t.mods.length = 1 }]) p)) := by
      intro k heff hok
      have hs := h.setModule h8 hl' tpl k rx tx hne ht4 hr4
      simp only [heff] at hs
      have := hs.congr (report_rows env _ (LiCan.Node.setModule env n t.mods.length tpl k rx tx).2)
        (report_silent env _ _) (report_tx env _ _)
      refine SimG.left_congr (left := fun p => left p && !decide (Covered (t.mods ++ [rawMod tpl (newNr t.mods nr) tx]) p)) ?_ fun p => ?_
      · simpa only [hok, rawMod, decide_eq_true_eq] using this
      · congr 2
        exact decide_eq_decide.2 (covered_append _ _ _ (by rfl) p)
    cases hd : (t.mods.any fun m => decide (m.nr = nr)) with
    | true =>
      simp only [hd, if_true] at hok ⊢
      refine ⟨fin _ ?_ hok, trivial⟩
      simp only [effNr, newNr, hd, true_or, if_true, u16]; split <;> omega
    | false =>
      simp only [hd, Bool.false_eq_true, if_false] at hok ⊢
      refine ⟨fin _ ?_ hok, trivial⟩
      simp only [effNr, newNr, hd, u16, Bool.false_eq_true, false_or]
      by_cases h1 : 124 < nr ∨ nr < 2
      · rw [if_pos h1, if_pos (Or.comm.1 h1)]; omega
      · rw [if_neg h1, if_neg fun e => h1 (Or.comm.1 e)]

/-! ## several initializations -/

/-- simulation of a `Life` -/
structure SimR (env : Env) (n : Node) (s : Life) : Prop where
  sim  : SimG env n s.tab s.left
  last : n.tx.last = s.last

theorem SimR.keep {env : Env} {n n' : Node} {s : Life} (h : SimR env n s) {t : Table} (hs : SimG env n' t s.left)
    (hl : n'.tx.last = n.tx.last) : SimR env n' ⟨t, s.last, fun p => s.left p && !decide (Covered t.mods p)⟩ := by
  refine ⟨hs.left_congr fun p => ?_, hl.trans h.last⟩
  dsimp only
  cases hp : s.left p with
  | false => rfl
  | true => simp [hs.apart p hp]

theorem SimR.add {env : Env} {n : Node} {s : Life} (h : SimR env n s) (h8 : env.maxMod ≤ 8)
    (tpl : Row) (nr : Nat) (rx tx : Nat → Nat) (hb : Basic (.add tpl nr rx tx)) :
    SimR env (addModule env n tpl nr rx tx).1
      (s.step env.maxMod (doneOk env n (.add tpl nr rx tx)) (.add tpl nr rx tx)) := by
  refine ⟨(h.sim.add h8 tpl nr rx tx hb).1, ?_⟩
  have hl := h.sim.len
  simp only [Life.step]
  by_cases hm : s.tab.mods.length = env.maxMod
  · simp only [addModule, h.sim.freeRow, hm, if_true]; exact h.last
  · simp only [addModule, h.sim.freeRow, hm, if_false]
    have key := fun nr => (setModule_last (env := env) (n := n) s.tab.mods.length (by omega) tpl nr (rx := rx) (tx := tx) (ht4 := hb.2.1)).1
    split
    · dsimp only; rw [report_tx, key, h.last]
    · dsimp only; rw [report_tx, key, h.last]

theorem SimG.process {env : Env} {n : Node} {t : Table} {left : Nat → Bool} (h : SimG env n t left) :
    SimG env ((sendProcessData env n).getD n) t left := by
  cases hx : sendProcessData env n with
  | none => exact h
  | some n' =>
    have := sendRun_ind env (fun x => x.rows = n.rows ∧ x.silent = n.silent ∧ x.tx = n.tx)
      (fun x tp obj buf hx => by
        obtain ⟨q, l, k, u, e⟩ := sendOne_eq env x tp obj buf
        rw [e]; exact hx) 32 _ ⟨rfl, rfl, rfl⟩ n' hx
    exact h.congr this.1 this.2.1 this.2.2

theorem SimR.step {env : Env} {n : Node} {s : Life} (h : SimR env n s) (h8 : env.maxMod ≤ 8) (op : Op)
    (ho : Proceeds env.maxMod s op) :
    SimR env (Node.step env n op).1 (s.step env.maxMod (doneOk env n op) op) := by
  cases op with
  | add tpl nr rx tx => exact h.add h8 tpl nr rx tx ho
  | silentAwake tp st => exact h.keep (h.sim.silentAwake h8 tp st true ho).1 (setSilentAwake_last ..)
  | silentAwakeBy typ nr st =>
    refine h.keep (h.sim.silentAwakeBy h8 typ nr st true ho).1 ?_
    show (setSilentAwakeBy env n typ nr st).1.tx.last = n.tx.last
    unfold setSilentAwakeBy; split
    · exact setSilentAwake_last ..
    · rfl
  | setActive typ =>
    refine h.keep (h.sim.active h8 typ true ho).1 ?_
    show (setActive env n typ).1.tx.last = n.tx.last
    unfold setActive; split
    · dsimp only; rw [syncOn_eq]
    · rfl
  | setCritical typ =>
    refine h.keep (h.sim.critical h8 typ true ho).1 ?_
    show (setCritical env n typ).1.tx.last = n.tx.last
    unfold setCritical; split
    · next tp _ =>
      dsimp only
      obtain ⟨_, _, e⟩ := syncOff_eq env n tp
      rw [e]
    · rfl
  | process =>
    refine h.keep h.sim.process ?_
    show ((sendProcessData env n).getD n).tx.last = _
    rw [(sendProcessData_tx env n).1]
  | changeNr typ nr act => exact absurd ho id
  | changeModuleNr tp nr => exact absurd ho id
  | changeTypeAdd typ tpl rx tx cb => exact absurd ho id
  | changeType tp typ => exact absurd ho id

/-- the specification following the calls after an initialization -/
def lifeRun (env : Env) : Node → Life → List Op → Life
  | _, s, [] => s
  | n, s, o :: os => lifeRun env (Node.step env n o).1 (s.step env.maxMod (doneOk env n o) o) os

/-- all calls after an initialization are covered -/
def AllProceed (env : Env) : Node → Life → List Op → Prop
  | _, _, [] => True
  | n, s, o :: os => Proceeds env.maxMod s o ∧
      AllProceed env (Node.step env n o).1 (s.step env.maxMod (doneOk env n o) o) os

theorem SimR.run {env : Env} (h8 : env.maxMod ≤ 8) (ops : List Op) :
    ∀ {n : Node} {s : Life}, SimR env n s → AllProceed env n s ops → SimR env (Node.run env n ops) (lifeRun env n s ops) := by
  induction ops with
  | nil => exact fun h _ => h
  | cons o os ih => intro n s h ho; exact ih (h.step h8 o ho.1) ho.2

theorem dueB_iff (t : Table) (p : Nat) : dueB t p = true ↔ Due t p := by
  unfold dueB Due
  cases t.mods[p / 4]? with
  | none => simp
  | some m => simp

/-- after an initialization nothing is registered, the rest is as it was -/
theorem SimR.restart {env : Env} (he : EnvOk env) {n : Node} {s : Life} (ha : n.silent = s.tab.awake)
    (hf : ∀ i, env.maxMod ≤ i → (n.rows i).typ = []) (hbits : ∀ p, n.tx.reg.getLsbD p = true ↔ Due s.tab p ∨ s.left p = true)
    (hl : n.tx.last = s.last) (hok : (Node.init env n).2 = E.ok) : SimR env (Node.init env n).1 s.restart := by
  obtain ⟨_, _, _, _, _, a6, a7, _, _, a10, a11, _⟩ := init_state env he n hok
  refine ⟨⟨Nat.zero_le _, by rw [a7]; exact ha, fun i m hm => by simp [Life.restart] at hm, fun i _ => ?_, fun p => ?_, ?_⟩,
    by rw [a6]; exact hl⟩
  · by_cases hi : i < env.maxMod
    · rw [a10 i hi]
    · rw [a11 i (by omega)]; exact hf i (by omega)
  · rw [a6, hbits]
    constructor
    · intro h; right; simp only [Life.restart, Bool.or_eq_true, dueB_iff]; exact h
    · rintro (⟨m, hm, _⟩ | h)
      · simp [Life.restart] at hm
      · simpa only [Life.restart, Bool.or_eq_true, dueB_iff] using h
  · rintro p _ ⟨m, hm, _⟩; simp [Life.restart] at hm

/-- the state after the first initialization and a history with number and type changes -/
def lifeOf (s : SendList) : Life := ⟨s.tab, s.last, fun _ => false⟩

theorem SimL.restart {env : Env} (he : EnvOk env) {n : Node} {s : SendList} (h : SimL env n s)
    (hok : (Node.init env n).2 = E.ok) : SimR env (Node.init env n).1 (lifeOf s).restart := by
  refine SimR.restart he h.sim.awake (fun i hi => (h.sim.free i (Nat.le_trans h.sim.len hi)).1) (fun p => ?_) h.last hok
  rw [h.sim.bits]; simp [lifeOf, Due]

theorem SimR.again {env : Env} (he : EnvOk env) {n : Node} {s : Life} (h : SimR env n s)
    (hok : (Node.init env n).2 = E.ok) : SimR env (Node.init env n).1 s.restart :=
  SimR.restart he h.sim.awake (fun i hi => h.sim.free i (Nat.le_trans h.sim.len hi)) h.sim.bits h.last hok

/-- further initializations, each followed by calls -/
def lives (env : Env) (n : Node) (eps : List (List Op)) : Node :=
  eps.foldl (fun n ops => Node.run env (Node.init env n).1 ops) n

/-- the specification following them -/
def livesRun (env : Env) : Node → Life → List (List Op) → Life
  | _, s, [] => s
  | n, s, ops :: eps => livesRun env (Node.run env (Node.init env n).1 ops) (lifeRun env (Node.init env n).1 s.restart ops) eps

/-- every initialization succeeds and all calls are covered -/
def AllLives (env : Env) : Node → Life → List (List Op) → Prop
  | _, _, [] => True
  | n, s, ops :: eps => (Node.init env n).2 = E.ok ∧ AllProceed env (Node.init env n).1 s.restart ops ∧
      AllLives env (Node.run env (Node.init env n).1 ops) (lifeRun env (Node.init env n).1 s.restart ops) eps

theorem SimR.lives {env : Env} (he : EnvOk env) (eps : List (List Op)) :
    ∀ {n : Node} {s : Life}, SimR env n s → AllLives env n s eps → SimR env (Node.lives env n eps) (livesRun env n s eps) := by
  induction eps with
  | nil => exact fun h _ => h
  | cons ops eps ih =>
    intro n s h ho
    exact ih ((h.again he ho.1).run he.m8 ops ho.2.1) ho.2.2

theorem NumOk.lifeRun {env : Env} (h8 : env.maxMod ≤ 8) (ops : List Op) :
    ∀ {n : Node} {s : Life}, SimR env n s → AllProceed env n s ops → NumOk s.tab.mods →
      NumOk (Node.lifeRun env n s ops).tab.mods := by
  induction ops with
  | nil => exact fun _ _ h => h
  | cons o os ih =>
    intro n s h ho hu
    exact ih (h.step h8 o ho.1) ho.2 (hu.tabStep _ _ o (Nat.le_trans h.sim.len h8))

end Node
end LiCan
