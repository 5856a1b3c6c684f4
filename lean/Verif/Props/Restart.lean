import Verif.Lemmas.Restart
import Verif.Lemmas.NodeExample
import Verif.Props.Renumbered
/-!
# Process requests after a further initialization: C130

`lcsa_init` empties the module table but leaves the list of what is to be sent as it is.  C130 says what that means
for the answers to process requests, whatever happened before and however often the stack is initialized.
-/
namespace LiCan
open Spec Node

theorem lives_sim {env : Env} (he : EnvOk env) {n : Node} {l : SendList} (h : SimL env n l) (ops : List Op)
    (eps : List (List Op)) (ha : AllLives env n (lifeOf l) (ops :: eps)) :
    SimR env (lives env n (ops :: eps)) (livesRun env n (lifeOf l) (ops :: eps)) := by
  obtain ⟨h1, h2, h3⟩ := ha
  exact ((h.restart he h1).run he.m8 ops h2).lives he eps h3

theorem lives_numOk {env : Env} (he : EnvOk env) (eps : List (List Op)) :
    ∀ {n : Node} {s : Life}, SimR env n s → AllLives env n s eps → NumOk s.tab.mods → NumOk (livesRun env n s eps).tab.mods := by
  induction eps with
  | nil => exact fun _ _ h => h
  | cons ops eps ih =>
    intro n s h ha _
    have h1 := h.again he ha.1
    exact ih (h1.run he.m8 ops ha.2.1) ha.2.2 (NumOk.lifeRun he.m8 ops h1 ha.2.1 (by intro i m hm; simp [Life.restart] at hm))

theorem lives_num {env : Env} (he : EnvOk env) {n : Node} {l : SendList} (h : SimL env n l) (ops : List Op)
    (eps : List (List Op)) (ha : AllLives env n (lifeOf l) (ops :: eps)) :
    NumOk (livesRun env n (lifeOf l) (ops :: eps)).tab.mods := by
  obtain ⟨a1, a2, a3⟩ := ha
  have h1 := h.restart he a1
  exact lives_numOk he eps (h1.run he.m8 ops a2) a3
    (NumOk.lifeRun he.m8 ops h1 a2 (by intro i m hm; simp [Life.restart] at hm))

theorem stuck_life {env : Env} {n : Node} {s : Life} (h : SimR env n s) (buf : List Byte) :
    Stuck ⟨n.tx.reg, 0, buf, n⟩ ↔ s.Gap := by
  have hb : ∀ p, n.tx.reg.getLsbD p = false ↔ ¬ s.Due p := by
    intro p
    rw [← Bool.not_eq_true, h.sim.bits]; rfl
  constructor
  · rintro ⟨p, q, a, b, c, d⟩
    simp only [Nat.zero_add] at b
    exact ⟨p, q, by rw [← h.last]; exact b, a, (hb p).1 c, (h.sim.bits q).1 d⟩
  · rintro ⟨p, q, a, b, c, d⟩
    exact ⟨p, q, b, by simp only [Nat.zero_add]; rw [h.last]; exact a, (hb p).2 c, (h.sim.bits q).2 d⟩

theorem sends_of_not_stuck {env : Env} {n : Node} (hns : ¬ Stuck ⟨n.tx.reg, 0, env.garbage, n⟩) :
    sendProcessData env n =
      some (sendAll env ((List.range 32).filter fun p => n.tx.reg.getLsbD p) (n, env.garbage)).1 := by
  unfold sendProcessData
  rw [sendRun_done env 32 _ hns (fun p hp => BitVec.getLsbD_of_ge _ _ hp) 32 (Nat.le_refl _)]
  simp [positions]

theorem replies_of_life {env : Env} (he : EnvOk env) {n : Node} {s : Life} (h : SimR env n s) (hnum : NumOk s.tab.mods)
    (hl : ∀ p, s.left p = false) (hc : Convertible env n.mem s.tab.mods) :
    ∃ (n' : Node) (evs : List Ev), sendProcessData env n = some n' ∧ n'.log = evs.reverse ++ n.log ∧
      evs.map frameOf = (replies env n.mem s.tab.mods).map some ∧ n'.ub = n.ub := by
  have hbits : ∀ p, n.tx.reg.getLsbD p = true ↔ Due s.tab p := by
    intro p; rw [h.sim.bits, hl p]; simp
  refine replies_of_shows ⟨h.sim.len, fun i m hm => (h.sim.row i m hm).sent, hbits⟩ hnum ?_ he hc
  apply sends_of_not_stuck
  apply not_stuck
  intro p hp
  obtain ⟨m, hm, _, hp'⟩ := (hbits p).1 hp
  have := (h.sim.row _ m hm).last trivial _ hp'
  simp only; omega

/-- C130: after any history, any number of further initializations and any calls after each of them, a process
request is answered iff the send list, with what is left from before, has no gap; otherwise the transmission loop
never ends. -/
theorem C130_answered_iff (env : Env) (he : EnvOk env) (mem : Nat → List Byte) (ops0 ops : List Op)
    (eps : List (List Op)) (hok : (Node.init env (boot mem)).2 = E.ok) (ho : ∀ o ∈ ops0, Numbering o)
    (hn : AllNamed env (Node.init env (boot mem)).1 ops0) :
    let n0 := Node.run env (Node.init env (boot mem)).1 ops0
    let s0 := lifeOf (listRun env (Node.init env (boot mem)).1 SendList.empty ops0)
    AllLives env n0 s0 (ops :: eps) →
    let n := lives env n0 (ops :: eps)
    let s := livesRun env n0 s0 (ops :: eps)
    ((∃ k n', sendRun env k ⟨n.tx.reg, 0, env.garbage, n⟩ = some n') ↔ ¬ s.Gap) ∧
    (s.Gap → ∀ k, sendRun env k ⟨n.tx.reg, 0, env.garbage, n⟩ = none) := by
  intro n0 s0 ha n s
  have h : SimR env n s := lives_sim he (SimL.run he.m8 ops0 ho (SimL.init he mem hok) hn) ops eps ha
  exact ⟨by rw [C10_exact, stuck_life h], fun hg k => sendRun_stuck env k _ ((stuck_life h _).2 hg)⟩

/-- C130: if nothing is left from before, the answer is exactly the frames of the modules registered since the last
initialization and taking part. -/
theorem C130_process_data_partial (env : Env) (he : EnvOk env) (mem : Nat → List Byte) (ops0 ops : List Op)
    (eps : List (List Op)) (hok : (Node.init env (boot mem)).2 = E.ok) (ho : ∀ o ∈ ops0, Numbering o)
    (hn : AllNamed env (Node.init env (boot mem)).1 ops0) :
    let n0 := Node.run env (Node.init env (boot mem)).1 ops0
    let s0 := lifeOf (listRun env (Node.init env (boot mem)).1 SendList.empty ops0)
    AllLives env n0 s0 (ops :: eps) →
    let n := lives env n0 (ops :: eps)
    let s := livesRun env n0 s0 (ops :: eps)
    (∀ p, s.left p = false) → Convertible env n.mem s.tab.mods →
    ∃ (n' : Node) (evs : List Ev), sendProcessData env n = some n' ∧ n'.log = evs.reverse ++ n.log ∧
      evs.map frameOf = (replies env n.mem s.tab.mods).map some ∧ n'.ub = n.ub := by
  intro n0 s0 ha n s hl hc
  have h0 := SimL.run he.m8 ops0 ho (SimL.init he mem hok) hn
  exact replies_of_life he (lives_sim he h0 ops eps ha) (lives_num he h0 ops eps ha) hl hc

/-! ## What is left -/

theorem covered_step {maxMod : Nat} {ok : Bool} {t : Table} (op : Op) (p : Nat) (h : Covered t.mods p) :
    Covered (t.step maxMod ok op).1.mods p := by
  cases op with
  | add tpl nr rx tx =>
    simp only [Table.step]; split
    · exact h
    · obtain ⟨m, hm, hp⟩ := h
      refine ⟨m, ?_, hp⟩
      rw [List.getElem?_append_left (List.getElem?_eq_some_iff.1 hm).1]; exact hm
  | silentAwake tp st =>
    simp only [Table.step]; (repeat' split) <;> first | exact h | exact (covered_switch ..).2 h
  | silentAwakeBy typ nr st =>
    simp only [Table.step]; split
    · exact h
    · (repeat' split) <;> first | exact h | exact (covered_switch ..).2 h
  | setActive typ => simp only [Table.step]; split <;> first | exact h | exact (covered_switch ..).2 h
  | setCritical typ => simp only [Table.step]; split <;> first | exact h | exact (covered_switch ..).2 h
  | _ => exact h

theorem left_run {env : Env} (ops : List Op) : ∀ (n : Node) (s : Life), (∀ p, s.left p = true → ¬ Covered s.tab.mods p) →
    ∀ p, (lifeRun env n s ops).left p = true ↔ s.left p = true ∧ ¬ Covered (lifeRun env n s ops).tab.mods p := by
  induction ops with
  | nil => exact fun n s h p => ⟨fun hp => ⟨hp, h p hp⟩, And.left⟩
  | cons o os ih =>
    intro n s h p
    have mono : ∀ (os : List Op) (n : Node) (s : Life) p, Covered s.tab.mods p → Covered (lifeRun env n s os).tab.mods p := by
      intro os
      induction os with
      | nil => exact fun _ _ _ h => h
      | cons o os ih => exact fun n s p h => ih _ _ p (covered_step o p h)
    have hd : ∀ q, (s.step env.maxMod (doneOk env n o) o).left q = true ↔
        s.left q = true ∧ ¬ Covered (s.step env.maxMod (doneOk env n o) o).tab.mods q := by
      intro q
      simp only [Life.step, Bool.and_eq_true, Bool.not_eq_true', decide_eq_false_iff_not]
    show (lifeRun env _ _ os).left p = true ↔ _
    rw [ih _ _ (fun q hq => ((hd q).1 hq).2) p, hd]
    constructor
    · exact fun ⟨⟨a, _⟩, c⟩ => ⟨a, c⟩
    · exact fun ⟨a, c⟩ => ⟨⟨a, fun e => c (mono os _ _ p e)⟩, c⟩

/-- C130: after an initialization exactly those places are left which were to be sent before and are not used by a
transmit object of a module registered since. -/
theorem C130_left_iff (env : Env) (n : Node) (s : Life) (ops : List Op) (p : Nat) :
    let s' := lifeRun env n s.restart ops
    s'.left p = true ↔ s.Due p ∧ ¬ Covered s'.tab.mods p := by
  intro s'
  rw [left_run ops n s.restart (fun p _ ⟨m, hm, _⟩ => by simp [Life.restart] at hm) p]
  simp only [Life.restart, Bool.or_eq_true, dueB_iff]
  rfl

/-- C130: an initialization after which every row used before is registered again with at least as many transmit
objects does no harm: the answer is exactly the frames of the modules registered since. -/
theorem C130_registered_again (env : Env) (he : EnvOk env) (mem : Nat → List Byte) (ops0 ops : List Op)
    (hok : (Node.init env (boot mem)).2 = E.ok) (ho : ∀ o ∈ ops0, Numbering o)
    (hn : AllNamed env (Node.init env (boot mem)).1 ops0) :
    let n0 := Node.run env (Node.init env (boot mem)).1 ops0
    let s0 := listRun env (Node.init env (boot mem)).1 SendList.empty ops0
    (Node.init env n0).2 = E.ok → AllProceed env (Node.init env n0).1 (lifeOf s0).restart ops →
    let n := Node.run env (Node.init env n0).1 ops
    let t := (lifeRun env (Node.init env n0).1 (lifeOf s0).restart ops).tab
    (∀ (i : Nat) (m : Mod), s0.tab.mods[i]? = some m → ∃ m' : Mod, t.mods[i]? = some m' ∧ m.txObj ≤ m'.txObj) →
    Convertible env n.mem t.mods →
    ∃ (n' : Node) (evs : List Ev), sendProcessData env n = some n' ∧ n'.log = evs.reverse ++ n.log ∧
      evs.map frameOf = (replies env n.mem t.mods).map some ∧ n'.ub = n.ub := by
  intro n0 s0 h1 h2 n t hr hc
  refine C130_process_data_partial env he mem ops0 ops [] hok ho hn ⟨h1, h2, trivial⟩ (fun p => ?_) hc
  rw [← Bool.not_eq_true]
  intro hp
  obtain ⟨hd, hcov⟩ := (C130_left_iff env _ _ ops p).1 hp
  rcases hd with ⟨m, hm, _, ho'⟩ | hd
  · obtain ⟨m', hm', hle⟩ := hr _ m hm
    exact hcov ⟨m', hm', Nat.lt_of_lt_of_le ho' hle⟩
  · simp [lifeOf] at hd

/-- C130: a module with one to three transmit objects is registered while something is left behind its row: the next
process request is never answered. -/
theorem C130_hangs (env : Env) (he : EnvOk env) (mem : Nat → List Byte) (ops0 ops : List Op)
    (eps : List (List Op)) (hok : (Node.init env (boot mem)).2 = E.ok) (ho : ∀ o ∈ ops0, Numbering o)
    (hn : AllNamed env (Node.init env (boot mem)).1 ops0) (tpl : Row) (nr : Nat) (rx tx : Nat → Nat)
    (hb : Basic (.add tpl nr rx tx)) :
    let n0 := Node.run env (Node.init env (boot mem)).1 ops0
    let s0 := lifeOf (listRun env (Node.init env (boot mem)).1 SendList.empty ops0)
    AllLives env n0 s0 (ops :: eps) →
    let n := lives env n0 (ops :: eps)
    let s := livesRun env n0 s0 (ops :: eps)
    s.tab.mods.length < env.maxMod → 1 ≤ tpl.txObj → tpl.txObj ≤ 3 →
    s.left (4 * s.tab.mods.length + tpl.txObj) = false →
    (∃ q, 4 * (s.tab.mods.length + 1) ≤ q ∧ s.left q = true) →
    let r := (Node.addModule env n tpl nr rx tx).1
    ∀ k, sendRun env k ⟨r.tx.reg, 0, env.garbage, r⟩ = none := by
  intro n0 s0 ha n s hfull h1 h3 hfree hq r k
  obtain ⟨q, hq, hleft⟩ := hq
  have h : SimR env n s := lives_sim he (SimL.run he.m8 ops0 ho (SimL.init he mem hok) hn) ops eps ha
  have hr := h.add he.m8 tpl nr rx tx hb
  apply sendRun_stuck
  rw [stuck_life hr]
  generalize doneOk env n (.add tpl nr rx tx) = ok
  have hne : ¬ s.tab.mods.length = env.maxMod := by omega
  have htab : ∃ m : Mod, m.txObj = tpl.txObj ∧ (s.tab.step env.maxMod ok (.add tpl nr rx tx)).1.mods = s.tab.mods ++ [m] := by
    simp only [Table.step, hne, if_false]
    exact ⟨_, by rfl, rfl⟩
  obtain ⟨m, hm, htab⟩ := htab
  refine ⟨4 * s.tab.mods.length + tpl.txObj, q, ?_, by omega, ?_, ?_⟩
  · simp only [Life.step, hne, if_false, endAt]
    rw [if_neg (by omega)]; omega
  · rintro (⟨x, hx, _, hp⟩ | hp)
    · simp only [Life.step, htab] at hx
      rw [show (4 * s.tab.mods.length + tpl.txObj) / 4 = s.tab.mods.length by omega] at hx
      simp only [List.getElem?_append_right (Nat.le_refl _), Nat.sub_self, List.getElem?_cons_zero,
        Option.some.injEq] at hx
      rw [← hx, hm] at hp
      omega
    · simp only [Life.step, hfree, Bool.false_and] at hp
      cases hp
  · right
    simp only [Life.step, hleft, htab, Bool.true_and, Bool.not_eq_true', decide_eq_false_iff_not]
    rintro ⟨x, hx, _⟩
    have := (List.getElem?_eq_some_iff.1 hx).1
    simp at this; omega

/-- C130: right after an initialization, before any module is registered, the device goes on answering process
requests for the modules it had before. -/
theorem C130_still_sent (env : Env) (he : EnvOk env) (mem : Nat → List Byte) (ops0 : List Op)
    (hok : (Node.init env (boot mem)).2 = E.ok) (ho : ∀ o ∈ ops0, Numbering o)
    (hn : AllNamed env (Node.init env (boot mem)).1 ops0) :
    let n0 := Node.run env (Node.init env (boot mem)).1 ops0
    let s0 := listRun env (Node.init env (boot mem)).1 SendList.empty ops0
    (Node.init env n0).2 = E.ok → ¬ s0.Gap → Convertible env n0.mem s0.tab.mods →
    ∃ (n' : Node) (evs : List Ev), sendProcessData env (Node.init env n0).1 = some n' ∧ n'.log = evs.reverse ++ n0.log ∧
      evs.map frameOf = (replies env n0.mem s0.tab.mods).map some ∧ n'.ub = n0.ub := by
  intro n0 s0 h1 hg hc
  have h0 := SimL.init he mem hok
  have h : SimL env n0 s0 := SimL.run he.m8 ops0 ho h0 hn
  have hnum := NumOk.listRun he.m8 ops0 ho h0 hn (by intro i m hm; simp [SendList.empty, Table.empty] at hm)
  obtain ⟨_, _, _, _, _, a6, _, _, _, a10, _, _, a13, a14, a15⟩ := init_state env he n0 h1
  have hs : Shows env (Node.init env n0).1 s0.tab := by
    refine ⟨h.sim.len, fun i m hm => ?_, by rw [a6]; exact h.sim.bits⟩
    have r := h.sim.row i m hm
    have hi : i < env.maxMod := Nat.lt_of_lt_of_le (List.getElem?_eq_some_iff.1 hm).1 h.sim.len
    refine ⟨r.tx4, ?_, ?_, ?_, ?_, ?_⟩
    · rw [a10 i hi]; exact r.txDlc
    · rw [a10 i hi]; exact r.tx
    · rw [a10 i hi]; exact r.conv
    · rw [a6]; exact r.id
    · rw [a6]; exact r.dlc
  have := replies_of_shows hs hnum (sends_of_not_stuck fun hst => hg ((stuck_iff h env.garbage).1 ?_)) he
    (by rw [a15]; exact hc)
  · rw [a13, a14, a15] at this; exact this
  · obtain ⟨p, q, a, b, c, d⟩ := hst
    simp only [a6] at b c d
    exact ⟨p, q, a, b, c, d⟩

/-! ## Counterexamples: the answer after an initialization is not always that of the registered modules -/

/-- two modules with four transmit objects each -/
def exFour : List Op :=
  [.add (exTpl 65 2 4) 5 (fun j => 100 + j) (fun j => 110 + j), .add (exTpl 66 1 4) 9 (fun j => 120 + j) (fun j => 130 + j)]

/-- after a second initialization only the first module is registered: the frames of the second one are sent all
the same -/
theorem C130_counterexample_stale :
    let n0 := Node.run exEnv (exInit exEnv) exFour
    (Node.init exEnv n0).2 = E.ok ∧
    let n := Node.run exEnv (Node.init exEnv n0).1 (exFour.take 1)
    (lifeRun exEnv (Node.init exEnv n0).1 (lifeOf (listRun exEnv (exInit exEnv) SendList.empty exFour)).restart
      (exFour.take 1)).tab.mods.map Mod.nr = [5] ∧
    (sendProcessData exEnv n).map (fun x => x.log.reverse.filterMap fun e => (frameOf e).map Frame.id) =
      some [0x410, 0x411, 0x412, 0x413, 0x420, 0x421, 0x422, 0x423] := by decide +kernel

/-- with two and three transmit objects the device is lost in the transmission loop instead -/
theorem C130_counterexample_hang :
    let n0 := Node.run exEnv (exInit exEnv) exOps
    (Node.init exEnv n0).2 = E.ok ∧
    let n := Node.run exEnv (Node.init exEnv n0).1 (exOps.take 1)
    ∀ k, sendRun exEnv k ⟨n.tx.reg, 0, exEnv.garbage, n⟩ = none := by
  refine ⟨by decide +kernel, fun k => ?_⟩
  apply sendRun_stuck
  exact ⟨2, 4, by decide, by decide +kernel, by decide +kernel, by decide +kernel⟩

/-- a module with one transmit object takes the row of one with two; the application gives no second object, and
the next process request dereferences its null pointer -/
theorem C130_counterexample_null :
    let n0 := Node.run exEnv (exInit exEnv) (exOps.take 1)
    (Node.init exEnv n0).2 = E.ok ∧
    let n := Node.run exEnv (Node.init exEnv n0).1
      [.add (exTpl 67 1 1) 7 (fun j => 100 + j) (fun j => if j < 1 then 110 else 0)]
    n.ub = false ∧ (sendProcessData exEnv n).map Node.ub = some true := by decide +kernel

/-! ## Examples -/

/-- both modules are registered again, the second one with four transmit objects, and made silent in between -/
def exAgain : List Op :=
  [.add (exTpl 65 2 2) 5 (fun j => 100 + j) (fun j => 110 + j), .silentAwake 0 0, .process,
   .add (exTpl 66 1 4) 9 (fun j => 120 + j) (fun j => 130 + j), .silentAwake 0 1]

def exLifeOf : Life := lifeOf (listRun exEnv (exInit exEnv) SendList.empty exRenumOps)

/-- the conditions of `C130_registered_again`, after a history with a number change -/
example :
    let n0 := Node.run exEnv (exInit exEnv) exRenumOps
    (Node.init exEnv n0).2 = E.ok ∧ AllProceed exEnv (Node.init exEnv n0).1 exLifeOf.restart exAgain ∧
    let t := (lifeRun exEnv (Node.init exEnv n0).1 exLifeOf.restart exAgain).tab
    (∀ (i : Nat) (m : Mod), exLifeOf.tab.mods[i]? = some m → ∃ m' : Mod, t.mods[i]? = some m' ∧ m.txObj ≤ m'.txObj) ∧
    (replies exEnv (Node.run exEnv (Node.init exEnv n0).1 exAgain).mem t.mods).map Frame.id =
      [0x410, 0x411, 0x420, 0x421, 0x422, 0x423] := by
  refine ⟨by decide +kernel, ?_, ?_, by decide +kernel⟩
  · refine ⟨by simp [Proceeds, Basic, exTpl], Or.inl (by decide +kernel), trivial, by simp [Proceeds, Basic, exTpl],
      Or.inl (by decide +kernel), trivial⟩
  · intro i m hm
    have h0 : exLifeOf.tab.mods.map Mod.txObj = [2, 3] := by decide +kernel
    generalize ht : (lifeRun exEnv (Node.init exEnv (Node.run exEnv (exInit exEnv) exRenumOps)).1 exLifeOf.restart
      exAgain).tab.mods = l
    have h1 : l.map Mod.txObj = [2, 4] := by rw [← ht]; decide +kernel
    have e0 : (exLifeOf.tab.mods.map Mod.txObj)[i]? = some m.txObj := by simp [hm]
    have hl : l.length = 2 := by have := congrArg List.length h1; simpa using this
    have hi : i < 2 := by
      rw [h0] at e0
      simpa using (List.getElem?_eq_some_iff.1 e0).1
    refine ⟨l[i], by simp [hl, hi], ?_⟩
    have e1 : (l.map Mod.txObj)[i]? = some l[i].txObj := by simp [hl, hi]
    rw [h0] at e0
    rw [h1] at e1
    have : i = 0 ∨ i = 1 := by omega
    rcases this with rfl | rfl
    · simp at e0 e1; omega
    · simp at e0 e1; omega

/-- the conditions of `C130_hangs`: two modules, then an initialization, then one with one transmit object -/
example :
    let n0 := Node.run exEnv (exInit exEnv) exOps
    let s0 := lifeOf (listRun exEnv (exInit exEnv) SendList.empty exOps)
    AllLives exEnv n0 s0 [[], []] ∧ Basic (.add (exTpl 67 1 3) 7 (fun j => 100 + j) (fun j => 110 + j)) ∧
    let s := livesRun exEnv n0 s0 [[], []]
    s.tab.mods.length = 0 ∧ s.left 3 = false ∧ s.left 4 = true := by
  refine ⟨⟨by decide +kernel, trivial, by decide +kernel, trivial, trivial⟩, by simp [Basic, exTpl], by decide +kernel,
    by decide +kernel, by decide +kernel⟩

end LiCan
