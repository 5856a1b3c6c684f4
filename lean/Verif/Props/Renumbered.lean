import Verif.Lemmas.Renum
import Verif.Props.NodeProcess
/-!
# Process requests after number changes: C126

C09 says what a process request is answered with as long as no number is changed, C10 that after a number change it
may never be answered.  C126 settles every history with number changes.
-/
namespace LiCan
open Spec Node

/-- `Stuck` is a gap in the send list -/
theorem stuck_iff {env : Env} {n : Node} {s : SendList} (h : SimL env n s) (buf : List Byte) :
    Stuck ⟨n.tx.reg, 0, buf, n⟩ ↔ s.Gap := by
  have hb : ∀ p, n.tx.reg.getLsbD p = false ↔ ¬ Due s.tab p := by
    intro p
    rw [← Bool.not_eq_true, h.sim.bits]; rfl
  constructor
  · rintro ⟨p, q, a, b, c, d⟩
    simp only [Nat.zero_add] at b
    exact ⟨p, q, by rw [← h.last]; exact b, a, (hb p).1 c, (h.sim.bits q).1 d⟩
  · rintro ⟨p, q, a, b, c, d⟩
    exact ⟨p, q, b, by simp only [Nat.zero_add]; rw [h.last]; exact a, (hb p).2 c, (h.sim.bits q).2 d⟩

theorem sends_of_noGap {env : Env} {n : Node} {s : SendList} (h : SimL env n s) (hg : ¬ s.Gap) :
    sendProcessData env n =
      some (sendAll env ((List.range 32).filter fun p => n.tx.reg.getLsbD p) (n, env.garbage)).1 := by
  have hns : ¬ Stuck ⟨n.tx.reg, 0, env.garbage, n⟩ := fun hs => hg ((stuck_iff h _).1 hs)
  unfold sendProcessData
  rw [sendRun_done env 32 _ hns (fun p hp => BitVec.getLsbD_of_ge _ _ hp) 32 (Nat.le_refl _)]
  simp [positions]

/-- C126: after any history of registrations, silent/awake/active/critical calls, process requests and number
changes, completed or not, a process request is answered iff the send list has no gap; otherwise the transmission
loop never ends. -/
theorem C126_answered_iff (env : Env) (he : EnvOk env) (mem : Nat → List Byte) (ops : List Op)
    (hok : (Node.init env (boot mem)).2 = E.ok) (ho : ∀ o ∈ ops, Numbering o)
    (hn : AllNamed env (Node.init env (boot mem)).1 ops) :
    let n := Node.run env (Node.init env (boot mem)).1 ops
    let s := listRun env (Node.init env (boot mem)).1 SendList.empty ops
    ((∃ k n', sendRun env k ⟨n.tx.reg, 0, env.garbage, n⟩ = some n') ↔ ¬ s.Gap) ∧
    (s.Gap → ∀ k, sendRun env k ⟨n.tx.reg, 0, env.garbage, n⟩ = none) := by
  intro n s
  have h : SimL env n s := SimL.run he.m8 ops ho (SimL.init he mem hok) hn
  exact ⟨by rw [C10_exact, stuck_iff h], fun hg k => sendRun_stuck env k _ ((stuck_iff h _).2 hg)⟩

/-- C126: if it is answered, then with exactly the frames of the modules taking part, in registration order, under
their current numbers. -/
theorem C126_process_data (env : Env) (he : EnvOk env) (mem : Nat → List Byte) (ops : List Op)
    (hok : (Node.init env (boot mem)).2 = E.ok) (ho : ∀ o ∈ ops, Numbering o)
    (hn : AllNamed env (Node.init env (boot mem)).1 ops) :
    let n := Node.run env (Node.init env (boot mem)).1 ops
    let s := listRun env (Node.init env (boot mem)).1 SendList.empty ops
    ¬ s.Gap → Convertible env n.mem s.tab.mods →
    ∃ (n' : Node) (evs : List Ev), sendProcessData env n = some n' ∧ n'.log = evs.reverse ++ n.log ∧
      evs.map frameOf = (replies env n.mem s.tab.mods).map some ∧ n'.ub = n.ub := by
  intro n s hg hc
  have h0 := SimL.init he mem hok
  have h : SimL env n s := SimL.run he.m8 ops ho h0 hn
  exact replies_of_sends h.sim
    (NumOk.listRun he.m8 ops ho h0 hn (by intro i m hm; simp [SendList.empty, Table.empty] at hm))
    (sends_of_noGap h hg) he hc

/-- C126 without assumptions on the conversions: whatever the history, every frame of an answer belongs to a module
taking part and carries the identifier which its current number gives it. -/
theorem C126_only_current (env : Env) (he : EnvOk env) (mem : Nat → List Byte) (ops : List Op)
    (hok : (Node.init env (boot mem)).2 = E.ok) (ho : ∀ o ∈ ops, Numbering o)
    (hn : AllNamed env (Node.init env (boot mem)).1 ops) :
    let n := Node.run env (Node.init env (boot mem)).1 ops
    let s := listRun env (Node.init env (boot mem)).1 SendList.empty ops
    ∀ n', sendProcessData env n = some n' → ∃ evs : List Ev, n'.log = evs ++ n.log ∧
      ∀ e ∈ evs, ∃ f ok, e = Ev.frame f ok ∧ ∃ m ∈ s.tab.mods, m.on = true ∧ ∃ o < m.txObj,
        f.id = 0x400 + 4 * (m.nr - 1) + o ∧ f.dlc = m.txDlc o := by
  intro n s n' hs
  have h0 := SimL.init he mem hok
  have h : SimL env n s := SimL.run he.m8 ops ho h0 hn
  have hu : NumOk s.tab.mods :=
    NumOk.listRun he.m8 ops ho h0 hn (by intro i m hm; simp [SendList.empty, Table.empty] at hm)
  have hg : ¬ s.Gap := by
    intro hg
    have := sendRun_stuck env 32 _ ((stuck_iff h env.garbage).2 hg)
    unfold sendProcessData at hs
    rw [this] at hs; cases hs
  rw [sends_of_noGap h hg] at hs
  rw [← Option.some.inj hs]
  obtain ⟨evs, e1, e2⟩ := sendAll_log env ((List.range 32).filter fun p => n.tx.reg.getLsbD p) n env.garbage
  refine ⟨evs, e1, ?_⟩
  intro e hev
  obtain ⟨f, ok, rfl, p, hp, h1, h2⟩ := e2 e hev
  simp only [List.mem_filter] at hp
  obtain ⟨m, hm, hon, ho⟩ := (h.sim.bits p).1 hp.2
  have r := h.sim.row _ m hm
  refine ⟨f, ok, rfl, m, List.mem_of_getElem? hm, hon, _, ho, ?_, by rw [h2, r.dlc _ ho]⟩
  have hrange := hu _ m hm
  have := r.tx4
  rw [h1, r.id _ ho, syncTxId, idOf_eq _ _ _ (by omega) (by omega)]
  omega

/-- C126: the number of a module with one to three transmit objects is changed, and a module registered later
takes part with a transmit object: the next process request is never answered.  Whether the change succeeds and
whether the module itself is awake does not matter. -/
theorem C126_hangs (env : Env) (he : EnvOk env) (mem : Nat → List Byte) (ops : List Op)
    (hok : (Node.init env (boot mem)).2 = E.ok) (ho : ∀ o ∈ ops, Numbering o)
    (hn : AllNamed env (Node.init env (boot mem)).1 ops) (typ : List Byte) (nr act tp i : Nat) (m m' : Mod) :
    let n := Node.run env (Node.init env (boot mem)).1 ops
    let s := listRun env (Node.init env (boot mem)).1 SendList.empty ops
    (s.tab.mods.findIdx? fun x => x.typ = typ ∧ x.nr = act) = some tp → s.tab.mods[tp]? = some m →
    1 ≤ m.txObj → m.txObj ≤ 3 → tp < i → s.tab.mods[i]? = some m' → m'.on = true → 1 ≤ m'.txObj →
    let r := (Node.changeNr env n typ nr act).1
    ∀ k, sendRun env k ⟨r.tx.reg, 0, env.garbage, r⟩ = none := by
  intro n s hf hm h1 h3 hi hm' hon ho' r k
  have h : SimL env n s := SimL.run he.m8 ops ho (SimL.init he mem hok) hn
  have hr := h.changeNr he.m8 typ nr act
  apply sendRun_stuck
  rw [stuck_iff hr]
  generalize decide ((Node.changeNr env n typ nr act).2 = E.ok) = ok
  have ht4 := (h.sim.row i m' hm').tx4
  have hlast : (s.renumber typ nr act ok).last = 4 * tp + (m.txObj - 1) := by
    simp only [SendList.renumber, hf, hm, Option.map_some, Option.getD_some, endAt]
    rw [if_neg (by omega)]
  have other : ∀ x, x ≠ tp → (s.renumber typ nr act ok).tab.mods[x]? = s.tab.mods[x]? := by
    intro x hx
    have hx' : ¬ tp = x := fun e => hx e.symm
    simp only [SendList.renumber, hf, Spec.renumberAt]
    split
    · simp only [switch_get, List.getElem?_modify, hx', if_false, Option.map_id_fun', id_eq, Option.map_eq_map]
    · simp only [List.getElem?_modify, hx', if_false, Option.map_id_fun', id_eq, Option.map_eq_map]
  have own : ∀ x, (s.renumber typ nr act ok).tab.mods[tp]? = some x → x.txObj = m.txObj := by
    intro x hx
    simp only [SendList.renumber, hf, Spec.renumberAt] at hx
    split at hx
    · simp only [switch_get, List.getElem?_modify, hm, if_true, Option.map_some, Option.map_eq_map,
        Option.some.injEq] at hx
      rw [← hx]; split <;> rfl
    · simp only [List.getElem?_modify, hm, if_true, Option.map_some, Option.map_eq_map,
        Option.some.injEq] at hx
      rw [← hx]
  refine ⟨4 * tp + m.txObj, 4 * i, by rw [hlast]; omega, by omega, ?_, ?_⟩
  · rintro ⟨x, hx, _, hp⟩
    rw [show (4 * tp + m.txObj) / 4 = tp by omega] at hx
    rw [own x hx, show (4 * tp + m.txObj) % 4 = m.txObj by omega] at hp
    omega
  · refine ⟨m', ?_, hon, by omega⟩
    rw [show 4 * i / 4 = i by omega, other i (by omega)]
    exact hm'

/-- C126: changing the number of a module with transmit objects does no harm if no module registered later takes
part with a transmit object: the next process request is answered. -/
theorem C126_last_is_safe (env : Env) (he : EnvOk env) (mem : Nat → List Byte) (ops : List Op)
    (hok : (Node.init env (boot mem)).2 = E.ok) (ho : ∀ o ∈ ops, Numbering o)
    (hn : AllNamed env (Node.init env (boot mem)).1 ops) (typ : List Byte) (nr act tp : Nat) (m : Mod) :
    let n := Node.run env (Node.init env (boot mem)).1 ops
    let s := listRun env (Node.init env (boot mem)).1 SendList.empty ops
    (s.tab.mods.findIdx? fun x => x.typ = typ ∧ x.nr = act) = some tp → s.tab.mods[tp]? = some m → 1 ≤ m.txObj →
    (∀ i m', tp < i → s.tab.mods[i]? = some m' → m'.on = false ∨ m'.txObj = 0) →
    let r := (Node.changeNr env n typ nr act).1
    ∃ n', ∀ k, 32 ≤ k → sendRun env k ⟨r.tx.reg, 0, env.garbage, r⟩ = some n' := by
  intro n s hf hm h1 hlater r
  have h : SimL env n s := SimL.run he.m8 ops ho (SimL.init he mem hok) hn
  have hr := h.changeNr he.m8 typ nr act
  have hg : ¬ (s.renumber typ nr act (decide ((Node.changeNr env n typ nr act).2 = E.ok))).Gap := by
    generalize decide ((Node.changeNr env n typ nr act).2 = E.ok) = ok at hr ⊢
    have hlast : (s.renumber typ nr act ok).last = 4 * tp + (m.txObj - 1) := by
      simp only [SendList.renumber, hf, hm, Option.map_some, Option.getD_some, endAt]
      rw [if_neg (by omega)]
    rintro ⟨p, q, a, b, _, x, hx, hon, hp⟩
    rw [hlast] at a
    simp only [SendList.renumber, hf, Spec.renumberAt] at hx
    by_cases e : tp = q / 4
    · have : x.txObj = m.txObj := by
        split at hx
        · simp only [switch_get, List.getElem?_modify, ← e, hm, if_true, Option.map_some, Option.map_eq_map,
            Option.some.injEq] at hx
          rw [← hx]; split <;> rfl
        · simp only [List.getElem?_modify, ← e, hm, if_true, Option.map_some, Option.map_eq_map,
            Option.some.injEq] at hx
          rw [← hx]
      omega
    · have hx' : s.tab.mods[q / 4]? = some x := by
        split at hx
        · simpa only [switch_get, List.getElem?_modify, e, if_false, Option.map_id_fun', id_eq, Option.map_eq_map] using hx
        · simpa only [List.getElem?_modify, e, if_false, Option.map_id_fun', id_eq, Option.map_eq_map] using hx
      rcases hlater (q / 4) x (by omega) hx' with h | h
      · rw [h] at hon; cases hon
      · omega
  have hp := sends_of_noGap hr hg
  unfold sendProcessData at hp
  exact ⟨_, fun k hk => (sendRun_stable env _ k hk).trans hp⟩

/-! ## Examples -/

/-- the second module gets number 20, the first one is made silent and awake again -/
def exRenumOps : List Op := exOps ++ [.changeNr [77, 68, 66] 20 9, .silentAwake 0 0, .silentAwake 0 1]

theorem exRenum_list : (listRun exEnv (exInit exEnv) SendList.empty exRenumOps).tab.mods =
    [{ typ := [77, 68, 65], nr := 5, txObj := 2, txDlc := fun _ => 2, tx := fun j => 110 + j
       main := fun _ => .app 0, conv := fun _ => .app 0, on := true },
     { typ := [77, 68, 66], nr := 20, txObj := 3, txDlc := fun _ => 2, tx := fun j => 130 + j
       main := fun _ => .app 0, conv := fun _ => .app 0, on := true }] := rfl

example : (∀ o ∈ exRenumOps, Numbering o) ∧ AllNamed exEnv (exInit exEnv) exRenumOps ∧
    ¬ (listRun exEnv (exInit exEnv) SendList.empty exRenumOps).Gap ∧
    replies exEnv (Node.run exEnv (exInit exEnv) exRenumOps).mem (listRun exEnv (exInit exEnv) SendList.empty exRenumOps).tab.mods =
      [⟨0x410, 2, [110, 111]⟩, ⟨0x411, 2, [111, 112]⟩, ⟨0x44C, 2, [130, 131]⟩, ⟨0x44D, 2, [131, 132]⟩,
       ⟨0x44E, 2, [132, 133]⟩] := by
  refine ⟨by simp [exRenumOps, exOps, Numbering, Basic, exTpl], by simp [exRenumOps, exOps, AllNamed, Named], ?_, by decide +kernel⟩
  rintro ⟨p, q, a, b, _, x, hx, hon, hq⟩
  have hl : (listRun exEnv (exInit exEnv) SendList.empty exRenumOps).last = 6 := by decide +kernel
  rw [hl] at a
  rw [exRenum_list] at hx
  have : q / 4 < 2 := (List.getElem?_eq_some_iff.1 hx).1
  have e : q / 4 = 1 := by omega
  rw [e] at hx
  simp only [List.getElem?_cons_succ, List.getElem?_cons_zero, Option.some.injEq] at hx
  rw [← hx] at hq
  simp only at hq
  omega

/-- and everything in it can be converted -/
example : Convertible exEnv (Node.run exEnv (exInit exEnv) exRenumOps).mem
    (listRun exEnv (exInit exEnv) SendList.empty exRenumOps).tab.mods := by
  intro m hm hon o ho
  have hmem : (Node.run exEnv (exInit exEnv) exRenumOps).mem = upd (upd exMem 100 [0, 0]) 101 [0, 0] := rfl
  rw [exRenum_list] at hm
  rw [hmem]
  simp only [List.mem_cons, List.not_mem_nil, or_false] at hm
  rcases hm with rfl | rfl
  · refine ⟨by simp, 0, rfl, fun buf => ⟨rfl, ?_⟩⟩
    show List.take 2 (List.take 2 _ ++ _) = List.take 2 (List.take 2 _ ++ _)
    rw [upd_other _ _ (by simp only; omega), upd_other _ _ (by simp only; omega)]; simp [exMem]
  · refine ⟨by simp, 0, rfl, fun buf => ⟨rfl, ?_⟩⟩
    show List.take 2 (List.take 2 _ ++ _) = List.take 2 (List.take 2 _ ++ _)
    rw [upd_other _ _ (by simp only; omega), upd_other _ _ (by simp only; omega)]; simp [exMem]

/-- giving the first module number 6 instead of 5 meets the conditions of `C126_hangs`, giving the second one
number 20 instead of 9 those of `C126_last_is_safe` -/
example :
    let s := listRun exEnv (exInit exEnv) SendList.empty exOps
    (s.tab.mods.findIdx? fun x => x.typ = [77, 68, 65] ∧ x.nr = 5) = some 0 ∧ s.tab.mods[0]?.map Mod.txObj = some 2 ∧
    s.tab.mods[1]?.map Mod.on = some true ∧ s.tab.mods[1]?.map Mod.txObj = some 3 ∧
    (s.tab.mods.findIdx? fun x => x.typ = [77, 68, 66] ∧ x.nr = 9) = some 1 ∧ s.tab.mods.length = 2 := by
  decide +kernel

end LiCan
