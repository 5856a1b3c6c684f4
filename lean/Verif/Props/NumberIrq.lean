import Verif.Model.NumberIrq
import Verif.Props.SwitchIrq
import Verif.Lemmas.Renum
import Verif.Props.Ids
/-! # A module's number is changed while process requests arrive (C138) -/
namespace LiCan
namespace Spec
open Node

/-- Number of identifiers the main loop has still to write. -/
def missing : List Nmic → Nat
  | [] => 0
  | .id _ :: l => missing l + 1
  | _ :: l => missing l

/-- The frame is that of place `p` of the send register in the table `n`: length and data are those of the table; the identifier is the
one in the table, except for the first `k` objects of row `tp`, which have that of the number `nr`. -/
def OldOrNew (env : Env) (n : Node) (tp nr k p : Nat) (f : Frame) : Prop :=
  f.id = (if p / 4 = tp ∧ p % 4 < k then 0x400 + 4 * (nr - 1) + p % 4 else n.tx.id (p / 4) (p % 4)) ∧
  f.dlc = n.tx.dlc (p / 4) (p % 4) ∧ ∃ buf d, Made env n p buf d ∧ f.data = d.take f.dlc

end Spec

namespace Node
open Spec
variable {env : Env}

/-! ## The steps add up to the function -/

/-- the steps one after the other -/
def nexecs (env : Env) (tp nr : Nat) (l : List Nmic) (s : Nsw) : Nsw := l.foldl (fun s m => nexec env tp nr m s) s

theorem nexecs_append (tp nr : Nat) (l m : List Nmic) (s : Nsw) :
    nexecs env tp nr (l ++ m) s = nexecs env tp nr m (nexecs env tp nr l s) := List.foldl_append

theorem nexecs_tx {tp : Nat} (nr : Nat) (htp : tp < env.maxMod) (is : List Nat) : ∀ s : Nsw, (∀ i ∈ is, i < 4) → s.err = E.ok →
    ((nexecs env tp nr (is.flatMap nmics) s).n, (nexecs env tp nr (is.flatMap nmics) s).err) =
      forErr (fun i n => txCnfg env n tp i nr) is s.n := by
  induction is with
  | nil => intro s _ h; rw [List.flatMap_nil, forErr, ← h]; rfl
  | cons i is ih =>
    intro s h4 h
    have hi := h4 i (List.mem_cons_self ..)
    rw [List.flatMap_cons, nexecs_append, ih _ (fun j hj => h4 j (List.mem_cons_of_mem _ hj)) (by exact h), forErr]
    have e : txCnfg env s.n tp i nr = ((nexecs env tp nr (nmics i) s).n, E.ok) := by
      unfold txCnfg
      rw [if_neg (by omega), if_neg (by omega)]
      rfl
    rw [e, thenOk, if_pos rfl]

/-- Without interrupts the steps, followed by `can_config_set_module_silent_awake`, are the function of the table model. -/
theorem C138_steps {n : Node} {typ : List Byte} {nr act tp : Nat} (hf : n.findTypeNr env typ act = some tp)
    (h4 : (n.rows tp).txObj ≤ 4) :
    changeNr env n typ nr act =
      thenOk ((nexecs env tp nr (nprogram (n.rows tp).txObj) { n := n }).n, (nexecs env tp nr (nprogram (n.rows tp).txObj) { n := n }).err)
        fun n => setSilentAwake env n tp (n.silent tp) := by
  have htp : tp < env.maxMod := by
    unfold findTypeNr at hf
    exact List.mem_range.1 (List.mem_of_find?_eq_some hf)
  unfold changeNr
  rw [hf]
  dsimp only
  have h0 : nexecs env tp nr (nprogram (n.rows tp).txObj) { n := n } =
      nexec env tp nr .hw (nexecs env tp nr ((List.range (n.rows tp).txObj).flatMap nmics)
        { n := n.setRow tp fun r => { r with nr := nr } }) := by
    unfold nprogram
    rw [show (Nmic.nr :: ((List.range (n.rows tp).txObj).flatMap nmics ++ [.hw])) =
      [Nmic.nr] ++ ((List.range (n.rows tp).txObj).flatMap nmics ++ [.hw]) from rfl, nexecs_append, nexecs_append]
    rfl
  rw [h0]
  have h1 := nexecs_tx (env := env) nr htp (List.range (n.rows tp).txObj) { n := n.setRow tp fun r => { r with nr := nr } }
    (fun i hi => by have := List.mem_range.1 hi; omega) rfl
  have h2 : renumTx env (n.setRow tp fun r => { r with nr := nr }) tp nr =
      forErr (fun i n => txCnfg env n tp i nr) (List.range (n.rows tp).txObj) (n.setRow tp fun r => { r with nr := nr }) := by
    unfold renumTx; rw [setRow_rows]
  rw [h2, ← h1]
  have h3 : ∀ (is : List Nat) (s : Nsw), s.err = E.ok → (nexecs env tp nr (is.flatMap nmics) s).err = E.ok := by
    intro is
    induction is with
    | nil => intro s h; exact h
    | cons i is ih =>
      intro s h
      rw [List.flatMap_cons, nexecs_append]
      exact ih _ h
  have h5 := h3 (List.range (n.rows tp).txObj) { n := n.setRow tp fun r => { r with nr := nr } } rfl
  generalize nexecs env tp nr ((List.range (n.rows tp).txObj).flatMap nmics) { n := n.setRow tp fun r => { r with nr := nr } } = s at *
  rw [thenOk, if_pos h5]
  show thenOk (renumRx env s.n tp nr) _ = thenOk (numberHw env s.n tp nr) _
  unfold numberHw
  generalize renumRx env s.n tp nr = q
  unfold thenOk
  by_cases hq : q.2 = E.ok
  · rw [if_pos hq, if_pos hq]
    rfl
  · rw [if_neg hq, if_neg hq, if_neg hq]

theorem numberHw_tabs (n : Node) (tp nr : Nat) : Tabs n (numberHw env n tp nr).1 := by
  have h : HwOnly n (numberHw env n tp nr).1 :=
    (renumRx_hwOnly env n tp nr).thenOk fun n => finishHw_hwOnly env n tp nr _
  obtain ⟨hw, u, c, s, e⟩ := h
  rw [e]
  exact ⟨rfl, rfl, rfl⟩

/-! ## Every state of a call -/

/-- `P` holds now and after each of the steps. -/
def AlongN (env : Env) (tp nr : Nat) (P : List Nmic → Nsw → Prop) : List Nmic → Nsw → Prop
  | [], s => P [] s
  | m :: l, s => P (m :: l) s ∧ AlongN env tp nr P l (nexec env tp nr m s)

theorem AlongN.now {tp nr : Nat} {P : List Nmic → Nsw → Prop} {l : List Nmic} {s : Nsw} (h : AlongN env tp nr P l s) : P l s := by
  cases l with
  | nil => exact h
  | cons m l => exact h.1

/-- the tables and the copied register are the same -/
structure EqvN (s s' : Nsw) : Prop where
  tabs : Tabs s.n s'.n
  tmp : s'.tmp = s.tmp

theorem EqvN.nexec {s s' : Nsw} (h : EqvN s s') (tp nr : Nat) (m : Nmic) : EqvN (nexec env tp nr m s) (nexec env tp nr m s') := by
  obtain ⟨⟨h1, h2, h3⟩, h4⟩ := h
  cases m with
  | hw =>
    have a := numberHw_tabs (env := env) s.n tp nr
    have b := numberHw_tabs (env := env) s'.n tp nr
    exact ⟨⟨b.rows.trans (h1.trans a.rows.symm), b.tx.trans (h2.trans a.tx.symm), b.mem.trans (h3.trans a.mem.symm)⟩, h4⟩
  | regRd i => exact ⟨⟨h1, h2, h3⟩, by simp only [Node.nexec, h2]⟩
  | regWr => exact ⟨⟨h1, by simp only [Node.nexec, h2, h4], h3⟩, h4⟩
  | _ => exact ⟨⟨by simp only [Node.nexec, setRow, h1], by simp only [Node.nexec, setRow, h2, h1], h3⟩, h4⟩

theorem AlongN.eqv {tp nr : Nat} {P : List Nmic → Nsw → Prop} (hP : ∀ l s s', EqvN s s' → P l s → P l s') :
    ∀ {l : List Nmic} {s s' : Nsw}, EqvN s s' → AlongN env tp nr P l s → AlongN env tp nr P l s'
  | [], _, _, e, h => hP _ _ _ e h
  | m :: _, _, _, e, h => ⟨hP _ _ _ e h.1, AlongN.eqv hP (e.nexec tp nr m) h.2⟩

/-- The tables when the first `k` identifiers and the first `r` bits are written; `n`: those at the beginning. -/
structure Mid (n : Node) (tp nr t k r : Nat) (s : Node) : Prop where
  main : ∀ x, (s.rows x).txMain = (n.rows x).txMain
  sync : ∀ x, (s.rows x).txMainSync = (n.rows x).txMainSync
  tdlc : ∀ x, (s.rows x).txDlc = (n.rows x).txDlc
  ptr : ∀ x, (s.rows x).tx = (n.rows x).tx
  mem : s.mem = n.mem
  reg : ∀ p, s.tx.reg.getLsbD p = (n.tx.reg.getLsbD p || decide (p / 4 = tp ∧ p % 4 < r))
  dlc : ∀ x j, s.tx.dlc x j = n.tx.dlc x j
  id : ∀ x j, s.tx.id x j = if x = tp ∧ j < k then syncTxId nr j else n.tx.id x j
  last : s.tx.last = n.tx.last ∨ ∃ i < t, s.tx.last = 4 * tp + i

theorem Mid.tabs {n : Node} {tp nr t k r : Nat} {s s' : Node} (h : Mid n tp nr t k r s) (e : Tabs s s') : Mid n tp nr t k r s' := by
  obtain ⟨e1, e2, e3⟩ := e
  exact ⟨by rw [e1]; exact h.main, by rw [e1]; exact h.sync, by rw [e1]; exact h.tdlc, by rw [e1]; exact h.ptr, by rw [e3]; exact h.mem,
    by rw [e2]; exact h.reg, by rw [e2]; exact h.dlc, by rw [e2]; exact h.id, by rw [e2]; exact h.last⟩

/-- what is known while the number is changed -/
def PNum (n : Node) (tp nr t : Nat) (l : List Nmic) (s : Nsw) : Prop :=
  missing l ≤ t ∧ ∃ r, r ≤ t - missing l ∧ t - missing l ≤ r + 1 ∧ Mid n tp nr t (t - missing l) r s.n

theorem PNum.eqv {n : Node} {tp nr t : Nat} (l : List Nmic) (s s' : Nsw) (h : EqvN s s') (k : PNum n tp nr t l s) : PNum n tp nr t l s' :=
  ⟨k.1, k.2.imp fun _ a => ⟨a.1, a.2.1, a.2.2.tabs h.tabs⟩⟩

theorem Mid.reg_eq {n : Node} {tp nr t k r : Nat} {s : Node} (h : Mid n tp nr t k r s) (hr : r ≤ t)
    (hb : ∀ i < t, n.tx.reg.getLsbD (4 * tp + i) = true) : s.tx.reg = n.tx.reg := by
  apply BitVec.eq_of_getLsbD_eq
  intro p _
  rw [h.reg]
  by_cases e : p / 4 = tp ∧ p % 4 < r
  · have := hb (p % 4) (by omega)
    rw [show 4 * tp + p % 4 = p from by omega] at this
    rw [this]; rfl
  · rw [decide_eq_false e, Bool.or_false]

/-- the objects from `k` on -/
theorem AlongN.blocks {n : Node} {tp nr t : Nat} (htp : tp < 8) (h4 : t ≤ 4) (hd : ∀ i < t, n.tx.dlc tp i = (n.rows tp).txDlc i) :
    ∀ (m k : Nat) (s : Nsw), k + m = t → Mid n tp nr t k k s.n →
      AlongN env tp nr (PNum n tp nr t) ((List.range' k m).flatMap nmics ++ [.hw]) s := by
  intro m
  induction m with
  | zero =>
    intro k s hk h
    have e : t = k := by omega
    refine ⟨⟨Nat.zero_le _, k, ?_⟩, Nat.zero_le _, k, ?_⟩
    · rw [show t - missing [Nmic.hw] = k from e]; exact ⟨Nat.le_refl _, Nat.le_succ _, h⟩
    · rw [show t - missing [] = k from e]; exact ⟨Nat.le_refl _, Nat.le_succ _, h.tabs (numberHw_tabs ..)⟩
  | succ m ih =>
    intro k s hk h
    have hm : ∀ k m, missing ((List.range' k m).flatMap nmics ++ [.hw]) = m := by
      intro k m
      induction m generalizing k with
      | zero => rfl
      | succ m ih => rw [List.range'_succ, List.flatMap_cons]; exact congrArg (· + 1) (ih (k + 1))
    rw [List.range'_succ, List.flatMap_cons, List.append_assoc]
    have hr := hm (k + 1) m
    have ih1 := fun s => ih (k + 1) s (by omega)
    generalize ((List.range' (k + 1) m).flatMap nmics ++ [Nmic.hw]) = rest at *
    have e1 : t - (m + 1) = k := by omega
    have e2 : t - m = k + 1 := by omega
    have hkt : k < t := by omega
    refine ⟨⟨?_, k, ?_⟩, ?_⟩
    · show missing rest + 1 ≤ t
      omega
    · show k ≤ t - (missing rest + 1) ∧ t - (missing rest + 1) ≤ k + 1 ∧ Mid n tp nr t (t - (missing rest + 1)) k s.n
      rw [hr, e1]
      exact ⟨Nat.le_refl _, Nat.le_succ _, h⟩
    show AlongN env tp nr _ (.dlc k :: .regRd k :: .regWr :: .last k :: rest) (nexec env tp nr (.id k) s)
    have pn : ∀ (l : List Nmic) (s' : Nsw) (r : Nat), missing l = m → r ≤ k + 1 → k + 1 ≤ r + 1 → Mid n tp nr t (k + 1) r s'.n →
        PNum n tp nr t l s' := by
      intro l s' r hl h1 h2 hs
      exact ⟨by omega, r, by rw [hl, e2]; exact ⟨h1, h2, hs⟩⟩
    have i1 : Mid n tp nr t (k + 1) k (nexec env tp nr (.id k) s).n := by
      refine ⟨h.main, h.sync, h.tdlc, h.ptr, h.mem, h.reg, h.dlc, fun x j => ?_, h.last⟩
      show upd s.n.tx.id tp (upd (s.n.tx.id tp) k (syncTxId nr k)) x j = _
      by_cases ex : x = tp
      · rw [ex, upd_same]
        by_cases ej : j = k
        · rw [ej, upd_same, if_pos ⟨rfl, by omega⟩]
        · rw [upd_other _ _ ej, h.id]
          by_cases el : j < k
          · rw [if_pos ⟨rfl, el⟩, if_pos ⟨rfl, by omega⟩]
          · rw [if_neg (fun hh => el hh.2), if_neg (fun hh => by omega)]
      · rw [upd_other _ _ ex, h.id, if_neg (fun hh => ex hh.1), if_neg (fun hh => ex hh.1)]
    generalize nexec env tp nr (.id k) s = s1 at i1 ⊢
    refine ⟨pn _ _ k hr (by omega) (by omega) i1, ?_⟩
    show AlongN env tp nr _ (.regRd k :: .regWr :: .last k :: rest) (nexec env tp nr (.dlc k) s1)
    have i2 : Mid n tp nr t (k + 1) k (nexec env tp nr (.dlc k) s1).n := by
      refine ⟨i1.main, i1.sync, i1.tdlc, i1.ptr, i1.mem, i1.reg, fun x j => ?_, i1.id, i1.last⟩
      show upd s1.n.tx.dlc tp (upd (s1.n.tx.dlc tp) k ((s1.n.rows tp).txDlc k)) x j = _
      by_cases ex : x = tp
      · rw [ex, upd_same]
        by_cases ej : j = k
        · rw [ej, upd_same, i1.tdlc, hd k hkt]
        · rw [upd_other _ _ ej, i1.dlc]
      · rw [upd_other _ _ ex, i1.dlc]
    generalize nexec env tp nr (.dlc k) s1 = s2 at i2 ⊢
    refine ⟨pn _ _ k hr (by omega) (by omega) i2, ?_⟩
    show AlongN env tp nr _ (.regWr :: .last k :: rest) (nexec env tp nr (.regRd k) s2)
    have i3 : Mid n tp nr t (k + 1) k (nexec env tp nr (.regRd k) s2).n := i2
    have r3 : ∀ p, (nexec env tp nr (.regRd k) s2).tmp.getLsbD p = (n.tx.reg.getLsbD p || decide (p / 4 = tp ∧ p % 4 < k + 1)) := by
      intro p
      show (s2.n.tx.reg ||| ((1#32 <<< k) <<< (4 * tp))).getLsbD p = _
      rw [BitVec.getLsbD_or, one_shift_bit k tp p (by omega), i2.reg, Bool.or_assoc]
      congr 1
      rw [← Bool.decide_or]
      exact decide_eq_decide.2 (by omega)
    generalize nexec env tp nr (.regRd k) s2 = s3 at i3 r3 ⊢
    refine ⟨pn _ _ k hr (by omega) (by omega) i3, ?_⟩
    show AlongN env tp nr _ (.last k :: rest) (nexec env tp nr .regWr s3)
    have i4 : Mid n tp nr t (k + 1) (k + 1) (nexec env tp nr .regWr s3).n :=
      ⟨i3.main, i3.sync, i3.tdlc, i3.ptr, i3.mem, r3, i3.dlc, i3.id, i3.last⟩
    generalize nexec env tp nr .regWr s3 = s4 at i4 ⊢
    refine ⟨pn _ _ (k + 1) hr (by omega) (by omega) i4, ?_⟩
    show AlongN env tp nr _ rest (nexec env tp nr (.last k) s4)
    have i5 : Mid n tp nr t (k + 1) (k + 1) (nexec env tp nr (.last k) s4).n :=
      ⟨i4.main, i4.sync, i4.tdlc, i4.ptr, i4.mem, i4.reg, i4.dlc, i4.id, .inr ⟨k, hkt, rfl⟩⟩
    exact ih1 _ i5

theorem nprogram_along {n : Node} {tp nr t : Nat} (htp : tp < 8) (h4 : t ≤ 4) (hd : ∀ i < t, n.tx.dlc tp i = (n.rows tp).txDlc i) : AlongN env tp nr (PNum n tp nr t) (nprogram t) { n := n } := by
  have hm : ∀ k m, missing ((List.range' k m).flatMap nmics ++ [.hw]) = m := by
    intro k m
    induction m generalizing k with
    | zero => rfl
    | succ m ih => rw [List.range'_succ, List.flatMap_cons]; exact congrArg (· + 1) (ih (k + 1))
  have hz : ∀ p, n.tx.reg.getLsbD p = (n.tx.reg.getLsbD p || decide (p / 4 = tp ∧ p % 4 < 0)) := fun p => by
    rw [decide_eq_false (fun h => Nat.not_lt_zero _ h.2), Bool.or_false]
  have h0 : Mid n tp nr t 0 0 n := ⟨fun _ => rfl, fun _ => rfl, fun _ => rfl, fun _ => rfl, rfl, hz, fun _ _ => rfl,
    fun x j => by rw [if_neg (fun h => Nat.not_lt_zero _ h.2)], .inl rfl⟩
  have h1 : Mid n tp nr t 0 0 (n.setRow tp fun r => { r with nr := nr }) := by
    have hr : ∀ x, (n.setRow tp fun r => { r with nr := nr }).rows x = if x = tp then { n.rows tp with nr := nr } else n.rows x := fun _ => rfl
    refine ⟨fun x => ?_, fun x => ?_, fun x => ?_, fun x => ?_, rfl, hz, fun _ _ => rfl, h0.id, .inl rfl⟩ <;>
    · rw [hr]
      split
      · rename_i e; rw [e]
      · rfl
  unfold nprogram
  rw [List.range_eq_range']
  refine ⟨⟨?_, 0, Nat.zero_le _, ?_⟩, AlongN.blocks htp h4 hd t 0 _ (by omega) h1⟩
  · show missing ((List.range' 0 t).flatMap nmics ++ [.hw]) ≤ t
    rw [hm]
    exact Nat.le_refl t
  · rw [show t - missing (Nmic.nr :: ((List.range' 0 t).flatMap nmics ++ [.hw])) = 0 from by
      show t - missing ((List.range' 0 t).flatMap nmics ++ [.hw]) = 0
      rw [hm]; omega]
    exact ⟨Nat.zero_le _, h0⟩

/-- Above the objects of the row no bit is set, and the request before the call returned: so do those during the call. -/
theorem Mid.ends {n : Node} {tp nr t k r : Nat} {s : Node} (h : Mid n tp nr t k r s) (hr : r ≤ t)
    (hb : ∀ i < t, n.tx.reg.getLsbD (4 * tp + i) = true)
    (hi : ∀ p, 4 * tp + t ≤ p → n.tx.reg.getLsbD p = false) (h0 : ∃ n', sendProcessData env n = some n') :
    ∃ s', sendProcessData env s = some s' := by
  have hs : ¬ Stuck ⟨s.tx.reg, 0, env.garbage, s⟩ := by
    rintro ⟨p, q, hpq, hl, hp, hq⟩
    dsimp only at hl hp hq
    rw [h.reg_eq hr hb] at hp hq
    rcases h.last with e | ⟨i, _, e⟩
    · obtain ⟨n', hn⟩ := h0
      unfold sendProcessData at hn
      rw [sendRun_stuck env 32 ⟨n.tx.reg, 0, env.garbage, n⟩ ⟨p, q, hpq, by rw [e] at hl; exact hl, hp, hq⟩] at hn
      cases hn
    · have hq2 : q < 4 * tp + t := by
        rcases Nat.lt_or_ge q (4 * tp + t) with hh | hh
        · exact hh
        · rw [hi q hh] at hq; cases hq
      have := hb (p - 4 * tp) (by omega)
      rw [show 4 * tp + (p - 4 * tp) = p from by omega, hp] at this
      cases this
  exact ⟨_, sendRun_done env 32 ⟨s.tx.reg, 0, env.garbage, s⟩ hs (fun p hp => BitVec.getLsbD_of_ge _ _ hp) 32 (Nat.le_refl _)⟩

/-- what a request in such a state does -/
theorem Mid.request {n : Node} {tp nr t k r : Nat} {s n' : Node} (h : Mid n tp nr t k r s) (hreg : s.tx.reg = n.tx.reg) (h4 : k ≤ 4) (h1 : 1 ≤ nr) (h2 : nr ≤ 127)
    (hn : ∀ p, n.tx.reg.getLsbD p = true → Entered n p) (hr : sendProcessData env s = some n') :
    ∃ evs, n'.log = evs ++ s.log ∧ ∀ f ok, Ev.frame f ok ∈ evs → ∃ p, n.tx.reg.getLsbD p = true ∧ OldOrNew env n tp nr k p f := by
  obtain ⟨evs, he, hf⟩ := request_right (env := env) (n := s) (fun p hp => by
    rw [hreg] at hp
    obtain ⟨c, a, b⟩ := hn p hp
    exact ⟨c, by rw [h.main]; exact a, by rw [h.sync]; exact b⟩) hr
  refine ⟨evs, he, fun f ok hm => ?_⟩
  obtain ⟨p, hp, a, b, buf, d, ⟨c, c1, c2⟩, e⟩ := hf f ok hm
  rw [hreg] at hp
  refine ⟨p, hp, ?_, by rw [b, h.dlc], buf, d, ⟨c, by rw [← h.main]; exact c1, by rw [← h.tdlc, ← h.ptr, ← h.mem]; exact c2⟩, e⟩
  rw [a, h.id]
  by_cases hc : p / 4 = tp ∧ p % 4 < k
  · rw [if_pos hc, if_pos hc]
    unfold syncTxId
    rw [idOf_eq _ _ _ h1 (by omega)]
    omega
  · rw [if_neg hc, if_neg hc]

theorem PNum.ends {n : Node} {tp nr t : Nat} {l : List Nmic} {s : Nsw} (h : PNum n tp nr t l s)
    (hb : ∀ i < t, n.tx.reg.getLsbD (4 * tp + i) = true)
    (hi : ∀ p, 4 * tp + t ≤ p → n.tx.reg.getLsbD p = false) (h0 : ∃ n', sendProcessData env n = some n') :
    ∃ s', sendProcessData env s.n = some s' := by
  obtain ⟨_, r, h1, _, h2⟩ := h
  exact h2.ends (by omega) hb hi h0

/-! ## The claim -/

/-- **C138, the part which holds.**  The number of the last module, which is awake, is changed in the main loop; process requests come at
any points of the call.  All of them are answered (the loop returns), by the objects which answered before; every frame carries length
and data of its object; the objects answer under the new number exactly as far as the main loop has written their identifiers: the first
ones new, the others old.  Missing for the full claim: it is false that an answer is never mixed. -/
theorem C138_partial {n : Node} {tp nr : Nat} (htp : tp < 8) (h4 : (n.rows tp).txObj ≤ 4) (h1 : 1 ≤ nr) (h2 : nr ≤ 127)
    (hn : ∀ p, n.tx.reg.getLsbD p = true → Entered n p)
    (hb : ∀ i < (n.rows tp).txObj, n.tx.reg.getLsbD (4 * tp + i) = true)
    (hl : ∀ p, 4 * tp + (n.rows tp).txObj ≤ p → n.tx.reg.getLsbD p = false)
    (hd : ∀ i < (n.rows tp).txObj, n.tx.dlc tp i = (n.rows tp).txDlc i)
    (h0 : ∃ n', sendProcessData env n = some n') (es : List NEv) :
    ∃ w, (Renum.start n tp).run env tp nr es = some w ∧ missing w.todo ≤ (n.rows tp).txObj ∧
      ∃ n' evs, sendProcessData env w.n = some n' ∧ n'.log = evs ++ w.n.log ∧ n'.tx.reg = n.tx.reg ∧
        ∀ f ok, Ev.frame f ok ∈ evs → ∃ p, n.tx.reg.getLsbD p = true ∧
          OldOrNew env n tp nr ((n.rows tp).txObj - missing w.todo) p f := by
  have key : ∀ (es : List NEv) (w : Renum), AlongN env tp nr (PNum n tp nr (n.rows tp).txObj) w.todo w.toNsw →
      ∃ v, w.run env tp nr es = some v ∧ AlongN env tp nr (PNum n tp nr (n.rows tp).txObj) v.todo v.toNsw := by
    intro es
    induction es with
    | nil => intro w h; exact ⟨w, rfl, h⟩
    | cons e es ih =>
      intro w h
      have hs : ∃ w1, w.step env tp nr e = some w1 ∧ AlongN env tp nr (PNum n tp nr (n.rows tp).txObj) w1.todo w1.toNsw := by
        cases e with
        | main =>
          simp only [Renum.step]
          split
          · exact ⟨w, rfl, h⟩
          · rename_i m l hw
            rw [hw] at h
            exact ⟨_, rfl, h.2⟩
        | request =>
          obtain ⟨n', hn'⟩ := h.now.ends (env := env) hb hl h0
          simp only [Renum.step, hn', Option.map_some]
          obtain ⟨ht, _⟩ := request_frames (fun _ _ => True) (fun _ _ _ _ _ => trivial) trivial (fun _ _ _ _ => trivial) hn'
          exact ⟨_, rfl, h.eqv PNum.eqv ⟨ht, rfl⟩⟩
      obtain ⟨w1, e1, h1⟩ := hs
      obtain ⟨v, e2, h2⟩ := ih w1 h1
      exact ⟨v, by simp only [Renum.run, e1, Option.bind_some, e2], h2⟩
  obtain ⟨w, hw, ha⟩ := key es (Renum.start n tp) (nprogram_along htp h4 hd)
  have hm := ha.now
  obtain ⟨n', hr⟩ := hm.ends (env := env) hb hl h0
  obtain ⟨hm1, r, hr1, _, hm2⟩ := hm
  have hreg := hm2.reg_eq (by omega) hb
  obtain ⟨evs, he, hf⟩ := hm2.request hreg (by omega) h1 h2 hn hr
  obtain ⟨ht, _⟩ := request_frames (fun _ _ => True) (fun _ _ _ _ _ => trivial) trivial (fun _ _ _ _ => trivial) hr
  exact ⟨w, hw, hm1, n', evs, hr, he, by rw [ht.tx, hreg], hf⟩

/-- All places but those of one row entered, and the set ones of that row with the dummy: the frames of the row are stale, the others
right. -/
theorem request_row {n n' : Node} {tp : Nat} (hs : ∀ p, n.tx.reg.getLsbD p = true → p / 4 ≠ tp → Entered n p)
    (hx : ∀ p, n.tx.reg.getLsbD p = true → p / 4 = tp → (n.rows tp).txMainSync (p % 4) = .dummy) (h : sendProcessData env n = some n') :
    ∃ evs, n'.log = evs ++ n.log ∧ ∀ f ok, Ev.frame f ok ∈ evs →
      (∃ p, p / 4 ≠ tp ∧ n.tx.reg.getLsbD p = true ∧ RightAt env n p f) ∨
      (∃ p, p / 4 = tp ∧ n.tx.reg.getLsbD p = true ∧ StaleAt env n p f) := by
  have hbx : ∀ p b, n.tx.reg.getLsbD p = true → p / 4 = tp → bufAt env n p b = b := fun p b h1 h2 => by
    unfold bufAt; rw [h2, hx p h1 h2]; rfl
  obtain ⟨_, evs, he, hf⟩ := request_frames (Held env n) (fun _ _ _ h k => Held.up h k) (.stack 0) (fun p b hp hb => by
    by_cases e : p / 4 = tp
    · rw [hbx p b hp e]; exact Held.up (Nat.le_succ _) hb
    · obtain ⟨k, h1, h2⟩ := hs p hp e
      refine .made (Nat.lt_succ_self p) hp hb ⟨k, h1, ?_⟩
      unfold bufAt
      rw [h2]
      rfl) h
  refine ⟨evs, he, fun f ok hm => ?_⟩
  obtain ⟨p, b, hp, hb, e⟩ := hf f ok hm
  rw [e]
  by_cases ep : p / 4 = tp
  · refine .inr ⟨p, ep, hp, rfl, rfl, b, hb, ?_⟩
    unfold frameAt
    rw [ep, hx p hp ep]
    rfl
  · exact .inl ⟨p, ep, hp, rightAt_of (hs p hp ep)⟩

/-- **C138, a silent module.**  The number of a silent module is changed in the main loop.  A request which comes during the call is answered
by the other modules as before, with right frames; a frame of the silent module is under the new number, of an object whose identifier the
main loop has written already, and carries what the frame buffer contained.  When the main loop has written no identifier yet, there is no
such frame. -/
theorem C138_silent {n : Node} {tp nr : Nat} (htp : tp < 8) (h4 : (n.rows tp).txObj ≤ 4) (h1 : 1 ≤ nr) (h2 : nr ≤ 127)
    (hn : ∀ p, n.tx.reg.getLsbD p = true → Entered n p)
    (ho : ∀ p, n.tx.reg.getLsbD p = true → p / 4 ≠ tp)
    (hs : ∀ i < (n.rows tp).txObj, (n.rows tp).txMainSync i = .dummy)
    (hd : ∀ i < (n.rows tp).txObj, n.tx.dlc tp i = (n.rows tp).txDlc i) {es : List NEv} {w : Renum}
    (hw : (Renum.start n tp).run env tp nr es = some w) {n' : Node} (hr : sendProcessData env w.n = some n') :
    ∃ evs, n'.log = evs ++ w.n.log ∧ ∀ f ok, Ev.frame f ok ∈ evs →
      (∃ p, n.tx.reg.getLsbD p = true ∧ RightAt env n p f) ∨
      (∃ i, i + missing w.todo < (n.rows tp).txObj ∧ StaleAt env w.n (4 * tp + i) f ∧ f.id = 0x400 + 4 * (nr - 1) + i) := by
  have key : ∀ (es : List NEv) (w v : Renum), AlongN env tp nr (PNum n tp nr (n.rows tp).txObj) w.todo w.toNsw →
      w.run env tp nr es = some v → AlongN env tp nr (PNum n tp nr (n.rows tp).txObj) v.todo v.toNsw := by
    intro es
    induction es with
    | nil => intro w v h e; rw [← Option.some.inj e]; exact h
    | cons e es ih =>
      intro w v h e0
      simp only [Renum.run, Option.bind_eq_some_iff] at e0
      obtain ⟨w1, h1, h2⟩ := e0
      refine ih w1 v ?_ h2
      cases e with
      | main =>
        simp only [Renum.step] at h1
        split at h1
        · rw [← Option.some.inj h1]; exact h
        · rename_i m l hl
          rw [← Option.some.inj h1]
          rw [hl] at h
          exact h.2
      | request =>
        simp only [Renum.step, Option.map_eq_some_iff] at h1
        obtain ⟨n', h3, h4⟩ := h1
        obtain ⟨ht, _⟩ := request_frames (fun _ _ => True) (fun _ _ _ _ _ => trivial) trivial (fun _ _ _ _ => trivial) h3
        rw [← h4]
        exact h.eqv PNum.eqv ⟨ht, rfl⟩
  obtain ⟨hm1, r, hr1, _, hm⟩ := (key es _ w (nprogram_along htp h4 hd) hw).now
  have bits : ∀ p, w.n.tx.reg.getLsbD p = true → n.tx.reg.getLsbD p = true ∨ (p / 4 = tp ∧ p % 4 < r) := by
    intro p hp
    rw [hm.reg, Bool.or_eq_true, decide_eq_true_eq] at hp
    exact hp
  obtain ⟨evs, he, hf⟩ := request_row (env := env) (tp := tp) (fun p hp hne => by
      obtain ⟨c, a, b⟩ := hn p ((bits p hp).resolve_right fun h => hne h.1)
      exact ⟨c, by rw [hm.main]; exact a, by rw [hm.sync]; exact b⟩) (fun p hp e => by
      rw [hm.sync]
      rcases bits p hp with h | h
      · exact absurd e (ho p h)
      · exact hs _ (by omega)) hr
  refine ⟨evs, he, fun f ok hmem => ?_⟩
  rcases hf f ok hmem with ⟨p, hne, hp, a, b, buf, d, ⟨c, c1, c2⟩, e⟩ | ⟨p, ep, hp, hst⟩
  · refine .inl ⟨p, (bits p hp).resolve_right fun h => hne h.1, ?_, by rw [b, hm.dlc], buf, d,
      ⟨c, by rw [← hm.main]; exact c1, by rw [← hm.tdlc, ← hm.ptr, ← hm.mem]; exact c2⟩, e⟩
    rw [a, hm.id, if_neg (fun h => hne h.1)]
  · have hlt : p % 4 < r := by
      rcases bits p hp with h | h
      · exact absurd ep (ho p h)
      · exact h.2
    refine .inr ⟨p % 4, by omega, ?_, ?_⟩
    · rw [show 4 * tp + p % 4 = p from by omega]; exact hst
    · rw [hst.1, hm.id, if_pos ⟨ep, by omega⟩]
      unfold syncTxId
      rw [idOf_eq _ _ _ h1 (by omega)]
      omega

/-- modules 5 and 9, both awake -/
def numNode : Node := Node.run exEnv (exInit exEnv) exOps

/-- `C138_partial` applies: module 9 becomes module 20. -/
example : (numNode.rows 1).txObj = 3 ∧ numNode.tx.reg = 0x73 ∧ (∀ p, numNode.tx.reg.getLsbD p = true → Entered numNode p) ∧
    (∀ i < 3, numNode.tx.reg.getLsbD (4 * 1 + i) = true) ∧ (∀ p, 4 * 1 + 3 ≤ p → numNode.tx.reg.getLsbD p = false) ∧
    (∀ i < 3, numNode.tx.dlc 1 i = (numNode.rows 1).txDlc i) ∧ (sendProcessData exEnv numNode).isSome = true := by
  refine ⟨by decide +kernel, by decide +kernel, ?_, by decide +kernel, ?_, by decide +kernel, by decide +kernel⟩
  · exact sw_bits fun p h1 h2 => ⟨0, (show ∀ p < 32, numNode.tx.reg.getLsbD p = true →
      (numNode.rows (p / 4)).txMain (p % 4) = .app 0 ∧ (numNode.rows (p / 4)).txMainSync (p % 4) = .app 0 from by decide +kernel) p h1 h2⟩
  · intro p hp
    rcases Nat.lt_or_ge p 32 with h | h
    · exact (show ∀ p < 32, 4 * 1 + 3 ≤ p → numNode.tx.reg.getLsbD p = false from by decide +kernel) p h hp
    · exact BitVec.getLsbD_of_ge _ _ h

/-- `C138_silent` applies: module 9 is silent and becomes module 20. -/
example : (swNode.rows 1).txObj = 3 ∧ (∀ p, swNode.tx.reg.getLsbD p = true → Entered swNode p) ∧
    (∀ p, swNode.tx.reg.getLsbD p = true → p / 4 ≠ 1) ∧ (∀ i < 3, (swNode.rows 1).txMainSync i = .dummy) ∧
    (∀ i < 3, swNode.tx.dlc 1 i = (swNode.rows 1).txDlc i) ∧
    ((Renum.start swNode 1).run exEnv 1 20 (List.replicate 8 .main ++ [.request])).isSome = true :=
  ⟨by decide +kernel, swNode_entered, sw_bits (by decide +kernel), by decide +kernel, by decide +kernel, by decide +kernel⟩

/-- **C138 as claimed is false: mixed answers.**  The number of module 9 is changed to 20 in the main loop; a process request comes when
the identifier of its first object is written.  That object answers under number 20 (0x44C), the other two under number 9. -/
theorem C138_counterexample_mixed :
    Reach exEnv numNode ∧
    ((Renum.start numNode 1).run exEnv 1 20 (List.replicate 2 .main ++ [.request])).map
      (fun w => (w.n.log.take 5).filterMap frameOf) =
    some [⟨0x422, 2, [132, 133]⟩, ⟨0x421, 2, [131, 132]⟩, ⟨0x44C, 2, [130, 131]⟩, ⟨0x411, 2, [111, 112]⟩, ⟨0x410, 2, [110, 111]⟩] :=
  ⟨exReach exOps exOps_basic, by decide +kernel⟩

/-- **C138 as claimed is false: silent modules.**  The number of the silent module 9 is changed; until the call makes the module silent
again, it answers process requests, with the data of the module before it. -/
theorem C138_counterexample_silent :
    Reach exEnv swNode ∧
    ((Renum.start swNode 1).run exEnv 1 20 (List.replicate 17 .main ++ [.request])).map
      (fun w => (w.n.silent 1, (w.n.log.take 5).filterMap frameOf)) =
    some (0, [⟨0x44E, 2, [111, 112]⟩, ⟨0x44D, 2, [111, 112]⟩, ⟨0x44C, 2, [111, 112]⟩, ⟨0x411, 2, [111, 112]⟩,
      ⟨0x410, 2, [110, 111]⟩]) :=
  ⟨exReach _ (by simp [exOps, Basic, exTpl]), by decide +kernel⟩

/-- modules 5 and 9, the second silent, then the first with the number 6 -/
def hangNode : Node := (changeNr exEnv swNode [77, 68, 65] 6 5).1

/-- **C138 as claimed is false: the answer.**  Process requests are answered before the call and after it; one which comes during the
call, when the first bit of the silent module is set and `send_end` not yet, is answered for ever: the interrupt does not return. -/
theorem C138_counterexample_hang :
    (sendProcessData exEnv hangNode).isSome = true ∧
    (sendProcessData exEnv (changeNr exEnv hangNode ((hangNode.rows 1).typ) 20 9).1).isSome = true ∧
    hangNode.findTypeNr exEnv (hangNode.rows 1).typ 9 = some 1 ∧
    ((Renum.start hangNode 1).run exEnv 1 20 (List.replicate 5 .main)).map (fun w => w.todo.head?) = some (some (.last 0)) ∧
    ((Renum.start hangNode 1).run exEnv 1 20 (List.replicate 5 .main ++ [.request])).isSome = false := by decide +kernel

end Node
end LiCan
