import Verif.Props.NodeTable
/-!
# Process data, silent and critical modules: C09 – C13
-/
namespace LiCan
open Spec Node

/-- The data of every module taking part can be converted: there is an object and a conversion
for it, which succeeds and fills the configured number of bytes. -/
def Convertible (env : Env) (mem : Nat → List Byte) (mods : List Mod) : Prop :=
  ∀ m ∈ mods, m.on = true → ∀ o < m.txObj, m.tx o ≠ 0 ∧ ∃ k, m.conv o = .app k ∧
    ∀ buf, (env.txConv k (mem (m.tx o)) (m.txDlc o) buf).2 = E.ok ∧
      (env.txConv k (mem (m.tx o)) (m.txDlc o) buf).1.take (m.txDlc o) =
      (env.txConv k (mem (m.tx o)) (m.txDlc o) env.garbage).1.take (m.txDlc o)

theorem replies_of_shows {env : Env} {n : Node} {t : Table} (h : Shows env n t)
    (hn : ∀ (i : Nat) (m : Mod), t.mods[i]? = some m → 1 ≤ m.nr ∧ m.nr ≤ 255)
    (hp : sendProcessData env n =
      some (sendAll env ((List.range 32).filter fun p => n.tx.reg.getLsbD p) (n, env.garbage)).1)
    (he : EnvOk env) (hc : Convertible env n.mem t.mods) :
    ∃ (n' : Node) (evs : List Ev), sendProcessData env n = some n' ∧ n'.log = evs.reverse ++ n.log ∧
      evs.map frameOf = (replies env n.mem t.mods).map some ∧ n'.ub = n.ub := by
  rw [h.positions he.m8] at hp
  -- the frame for a position
  let F : Nat → Frame := fun p => match t.mods[p / 4]? with
    | some m => ⟨0x400 + 4 * (m.nr - 1) + p % 4, m.txDlc (p % 4), content env n.mem env.garbage m (p % 4)⟩
    | none => ⟨0, 0, []⟩
  have hmem : ∀ p ∈ (List.range t.mods.length).flatMap (rowPos t.mods), ∃ m, t.mods[p / 4]? = some m ∧ m.on = true ∧ p % 4 < m.txObj := by
    intro p hp
    have := h.positions he.m8
    rw [← this] at hp
    simp only [List.mem_filter] at hp
    exact (h.bits p).1 hp.2
  obtain ⟨evs, e1, e2, e3⟩ := sendAll_frames env n.mem F n.rows n.tx _ (by
    intro p hp
    obtain ⟨m, hm, hon, ho⟩ := hmem p hp
    have r := h.row _ m hm
    obtain ⟨g1, k, g2, g3⟩ := hc m (List.mem_of_getElem? hm) hon _ ho
    refine ⟨by rw [r.tx]; exact g1, k, by rw [r.conv _ ho, g2], ?_⟩
    intro buf
    rw [r.tx, r.txDlc]
    refine ⟨(g3 buf).1, ?_⟩
    simp only [F, hm, r.id _ ho, r.dlc _ ho, content, g2, (g3 buf).2]
    congr 1
    have hrange := hn _ m hm
    have := r.tx4
    rw [syncTxId, idOf_eq _ _ _ (by omega) (by omega)]
    omega) n env.garbage rfl rfl rfl
  refine ⟨_, evs, hp, e1, ?_, e3⟩
  rw [e2]
  have : (replies env n.mem t.mods) =
      ((List.range t.mods.length).flatMap (rowPos t.mods)).map F := by
    unfold replies rowPos
    rw [List.map_flatMap]
    have hl : t.mods.flatMap (fun m => if m.on then
        (List.range m.txObj).map fun o =>
          (⟨0x400 + 4 * (m.nr - 1) + o, m.txDlc o, content env n.mem env.garbage m o⟩ : Frame) else []) =
      (List.range t.mods.length).flatMap fun i => match t.mods[i]? with
        | some m => if m.on then
          (List.range m.txObj).map fun o =>
            (⟨0x400 + 4 * (m.nr - 1) + o, m.txDlc o, content env n.mem env.garbage m o⟩ : Frame) else []
        | none => [] := by
      generalize (fun m : Mod => if m.on then
        (List.range m.txObj).map fun o =>
          (⟨0x400 + 4 * (m.nr - 1) + o, m.txDlc o, content env n.mem env.garbage m o⟩ : Frame) else []) = G
      have : ∀ l : List Mod, l.flatMap G = (List.range l.length).flatMap fun i => match l[i]? with
          | some m => G m
          | none => [] := by
        intro l
        induction l with
        | nil => rfl
        | cons a l ih =>
          rw [List.flatMap_cons, List.length_cons, List.range_succ_eq_map, List.flatMap_cons, ih,
            List.flatMap_map]
          simp
      exact this _
    rw [hl]
    simp only [List.flatMap]
    congr 1
    apply List.map_congr_left
    intro i hi
    cases hm : t.mods[i]? with
    | none => rfl
    | some m =>
      simp only
      split
      · rw [List.map_map]
        apply List.map_congr_left
        intro o ho
        have h4 := (h.row i m hm).tx4
        simp only [List.mem_range] at ho
        simp only [Function.comp, F]
        rw [show (4 * i + o) / 4 = i by omega, show (4 * i + o) % 4 = o by omega]
        simp only [hm]
      · rfl
  rw [this, List.map_map]

theorem replies_of_sends {env : Env} {n : Node} {t : Table} (h : SimQ Q env n t)
    (hn : ∀ (i : Nat) (m : Mod), t.mods[i]? = some m → 1 ≤ m.nr ∧ m.nr ≤ 255)
    (hp : sendProcessData env n =
      some (sendAll env ((List.range 32).filter fun p => n.tx.reg.getLsbD p) (n, env.garbage)).1)
    (he : EnvOk env) (hc : Convertible env n.mem t.mods) :
    ∃ (n' : Node) (evs : List Ev), sendProcessData env n = some n' ∧ n'.log = evs.reverse ++ n.log ∧
      evs.map frameOf = (replies env n.mem t.mods).map some ∧ n'.ub = n.ub :=
  replies_of_shows h.shows hn hp he hc

theorem replies_of_sim {env : Env} {n : Node} {t : Table} (h : Sim env n t) (hn : NrInv t.mods)
    (he : EnvOk env) (hc : Convertible env n.mem t.mods) :
    ∃ (n' : Node) (evs : List Ev), sendProcessData env n = some n' ∧ n'.log = evs.reverse ++ n.log ∧
      evs.map frameOf = (replies env n.mem t.mods).map some ∧ n'.ub = n.ub := by
  refine replies_of_sends h (fun i m hm => ?_) (Good.process h) he hc
  have hlen := (List.getElem?_eq_some_iff.1 hm).1
  have h8 := he.m8
  have hl := h.len
  have hrange := hn.range _ m hm
  omega

/-- C09: after any history the answer to a process request is exactly the list of frames of the
modules taking part (`specRun` follows the history, told which registrations could be completed),
in order, with identifiers, lengths and contents; nothing else is done. -/
theorem C09_process_data (env : Env) (he : EnvOk env) (mem : Nat → List Byte) (ops : List Op)
    (hok : (Node.init env (boot mem)).2 = E.ok) (hb : ∀ o ∈ ops, Basic o) :
    let n := Node.run env (Node.init env (boot mem)).1 ops
    let t := specRun env (Node.init env (boot mem)).1 Table.empty ops
    Convertible env n.mem t.mods →
    ∃ (n' : Node) (evs : List Ev), sendProcessData env n = some n' ∧ n'.log = evs.reverse ++ n.log ∧
      evs.map frameOf = (replies env n.mem t.mods).map some ∧ n'.ub = n.ub := by
  intro n t hc
  have hg := Good.run he ops hb (Good.init he mem hok)
  have hn : NrInv t.mods := NrInv.specRun ops (by constructor <;> simp [Table.empty])
  exact replies_of_sim hg.sim hn he hc

/-- C09 for a working controller with enough message objects: the table is the one a user expects
(`Table.run`), without reference to the code. -/
theorem C09_process_data_complete (env : Env) (he : EnvOk env) (hhw : ∀ k, env.hwOk k = true)
    (mem : Nat → List Byte) (ops : List Op)
    (hok : (Node.init env (boot mem)).2 = E.ok) (hb : ∀ o ∈ ops, Basic o ∧ StateOk o)
    (hneed : (ops.map need).sum + (if env.sysObj2 then 5 else 4) ≤ env.nObj) :
    let n := Node.run env (Node.init env (boot mem)).1 ops
    let t := Table.run env.maxMod Table.empty ops
    Convertible env n.mem t.mods →
    ∃ (n' : Node) (evs : List Ev), sendProcessData env n = some n' ∧ n'.log = evs.reverse ++ n.log ∧
      evs.map frameOf = (replies env n.mem t.mods).map some ∧ n'.ub = n.ub := by
  intro n t hc
  have h1 := (Good.complete he hhw ops hb (Good.init he mem hok) (by simp [Table.empty]) (by
    rw [freeCnt_init he mem hok]; omega) (by simp [Table.empty])).1
  have := C09_process_data env he mem ops hok (fun o ho => (hb o ho).1)
  simp only [h1] at this
  exact this hc

/-- module 0 silent: only the three frames of module 1 (number 9) -/
example :
    let ops := exOps ++ [.silentAwake 0 0]
    let n := Node.run exEnv (exInit exEnv) ops
    (∀ o ∈ ops, Basic o ∧ StateOk o) ∧ Convertible exEnv n.mem (Table.run 3 Table.empty ops).mods ∧
    replies exEnv n.mem (Table.run 3 Table.empty ops).mods =
      [⟨0x420, 2, [130, 131]⟩, ⟨0x421, 2, [131, 132]⟩, ⟨0x422, 2, [132, 133]⟩] := by
  refine ⟨by simp [exOps, Basic, StateOk, exTpl], ?_, by decide +kernel⟩
  intro m hm hon o ho
  have : (Table.run 3 Table.empty (exOps ++ [.silentAwake 0 0])).mods =
    [{ typ := [77, 68, 65], nr := 5, txObj := 2, txDlc := fun _ => 2, tx := fun j => 110 + j
       main := fun _ => .app 0, conv := fun _ => .dummy, on := false },
     { typ := [77, 68, 66], nr := 9, txObj := 3, txDlc := fun _ => 2, tx := fun j => 130 + j
       main := fun _ => .app 0, conv := fun _ => .app 0, on := true }] := rfl
  rw [this] at hm
  simp only [List.mem_cons, List.not_mem_nil, or_false] at hm
  rcases hm with rfl | rfl
  · cases hon
  · refine ⟨by simp, 0, rfl, ?_⟩
    intro buf
    refine ⟨rfl, ?_⟩
    have hlen : (Node.run exEnv (exInit exEnv) (exOps ++ [.silentAwake 0 0])).mem (130 + o) =
        exMem (130 + o) := by
      have h0 : (Node.run exEnv (exInit exEnv) (exOps ++ [.silentAwake 0 0])).mem =
        upd (upd exMem 100 [0, 0]) 101 [0, 0] := rfl
      rw [h0, upd_other _ _ (by omega), upd_other _ _ (by omega)]
    show List.take 2 (List.take 2 _ ++ _) = List.take 2 (List.take 2 _ ++ _)
    rw [hlen]; simp [exMem]

/-- C09 without assumptions on the conversions: every frame handed to the driver belongs to a
registered module taking part in the exchange and carries the identifier and length of one of its
transmit objects. -/
theorem C09_only_active (env : Env) (he : EnvOk env) (mem : Nat → List Byte) (ops : List Op)
    (hok : (Node.init env (boot mem)).2 = E.ok) (hb : ∀ o ∈ ops, Basic o) :
    let n := Node.run env (Node.init env (boot mem)).1 ops
    let t := specRun env (Node.init env (boot mem)).1 Table.empty ops
    ∃ (n' : Node) (evs : List Ev), sendProcessData env n = some n' ∧ n'.log = evs ++ n.log ∧
      ∀ e ∈ evs, ∃ f ok, e = Ev.frame f ok ∧ ∃ m ∈ t.mods, m.on = true ∧ ∃ o < m.txObj,
        f.id = 0x400 + 4 * (m.nr - 1) + o ∧ f.dlc = m.txDlc o := by
  intro n t
  have hg : Good env n t := Good.run he ops hb (Good.init he mem hok)
  have hn : NrInv t.mods := NrInv.specRun ops (by constructor <;> simp [Table.empty])
  obtain ⟨evs, e1, e2⟩ := sendAll_log env ((List.range 32).filter fun p => n.tx.reg.getLsbD p) n env.garbage
  refine ⟨_, evs, Good.process hg.sim, e1, ?_⟩
  intro e hev
  obtain ⟨f, ok, rfl, p, hp, h1, h2⟩ := e2 e hev
  simp only [List.mem_filter] at hp
  obtain ⟨m, hm, hon, ho⟩ := (hg.sim.bits p).1 hp.2
  have r := hg.sim.row _ m hm
  refine ⟨f, ok, rfl, m, List.mem_of_getElem? hm, hon, _, ho, ?_, by rw [h2, r.dlc _ ho]⟩
  have hlen := (List.getElem?_eq_some_iff.1 hm).1
  have h8 := he.m8
  have hl := hg.sim.len
  have hrange := hn.range _ m hm
  rw [h1, r.id _ ho, syncTxId, idOf_eq _ _ _ (by omega) (by omega)]
  omega

/-! ## C10 -/

/-- C10: for every register content the transmission loop returns unless it runs into an unset
position beyond the recorded end before the last set position; then it never returns. -/
theorem C10_exact (env : Env) (s : SendSt) : (∃ k n', sendRun env k s = some n') ↔ ¬ Stuck s := by
  constructor
  · rintro ⟨k, n', h⟩ hs
    rw [sendRun_stuck env k s hs] at h; cases h
  · intro h
    exact ⟨32, _, sendRun_done env 32 s h (fun p hp => BitVec.getLsbD_of_ge _ _ hp) 32 (Nat.le_refl _)⟩

/-- C10: after any history without number or type change the loop returns, within 32 steps.
Missing for the full claim: histories with number changes, where it is false
(`C10_counterexample`). -/
theorem C10_terminates_partial (env : Env) (he : EnvOk env) (n : Node) (h : Reach env n) :
    ∃ n', ∀ k, 32 ≤ k → sendRun env k ⟨n.tx.reg, 0, env.garbage, n⟩ = some n' := by
  obtain ⟨t, hg, _⟩ := h.good he
  have hp := Good.process hg.sim
  unfold sendProcessData at hp
  exact ⟨_, fun k hk => (sendRun_stable env _ k hk).trans hp⟩

example : Reach exEnv (Node.run exEnv (exInit exEnv) exOps) := exReach exOps exOps_basic

/-- C10 is false: two modules with three resp. two transmit objects; after changing the number of
the first one from 5 to 6 no process request is ever answered completely: the loop does not
return.  (Position 3 is unset, and the recorded end is position 2.) -/
theorem C10_counterexample :
    let n := Node.run exEnv (exInit exEnv)
      [.add (exTpl 65 1 3) 5 (fun _ => 1) (fun _ => 2), .add (exTpl 66 1 2) 9 (fun _ => 3) (fun _ => 4)]
    let r := changeNr exEnv n [77, 68, 65] 6 5
    Reach exEnv n ∧ r.2 = E.ok ∧
    ∀ k, sendRun exEnv k ⟨r.1.tx.reg, 0, exEnv.garbage, r.1⟩ = none := by
  refine ⟨exReach _ (by simp [Basic, exTpl]), by decide +kernel, ?_⟩
  intro k
  apply sendRun_stuck
  exact ⟨3, 4, by decide, by decide +kernel, by decide +kernel, by decide +kernel⟩

/-! ## C11, C13: silent and critical modules -/

/-- frames of row `i` in a list of effects -/
def FrameOfRow (n : Node) (i : Nat) (e : Ev) : Prop :=
  ∃ f ok, e = Ev.frame f ok ∧ ∃ o < 4, f.id = 0x400 + 4 * ((n.rows i).nr - 1) + o

/-- a module that does not take part transmits nothing -/
theorem off_no_frames {env : Env} (he : EnvOk env) {n : Node} {t : Table} (hg : Good env n t)
    (hn : NrInv t.mods) {i : Nat} {m : Mod} (hm : t.mods[i]? = some m) (hoff : m.on = false) :
    ∃ (n' : Node) (evs : List Ev), sendProcessData env n = some n' ∧ n'.log = evs ++ n.log ∧ ∀ e ∈ evs, ¬ FrameOfRow n i e := by
  obtain ⟨evs, e1, e2⟩ := sendAll_log env ((List.range 32).filter fun p => n.tx.reg.getLsbD p) n env.garbage
  refine ⟨_, evs, Good.process hg.sim, e1, ?_⟩
  rintro e hev ⟨f, ok, he', o, ho, hid⟩
  obtain ⟨f', ok', h0, p, hp, h1, h2⟩ := e2 e hev
  rw [h0] at he'
  obtain ⟨rfl, rfl⟩ : f' = f ∧ ok' = ok := by simpa using he'
  simp only [List.mem_filter] at hp
  obtain ⟨m', hm', hon', ho'⟩ := (hg.sim.bits p).1 hp.2
  have r := hg.sim.row _ m hm
  have r' := hg.sim.row _ m' hm'
  have hne : i ≠ p / 4 := by
    rintro rfl
    rw [hm] at hm'
    simp only [Option.some.injEq] at hm'
    rw [← hm', hoff] at hon'; cases hon'
  have hd := hn.dist _ _ m m' hm hm' hne
  have hlen := (List.getElem?_eq_some_iff.1 hm).1
  have hlen' := (List.getElem?_eq_some_iff.1 hm').1
  have h8 := he.m8
  have hl := hg.sim.len
  have hr := hn.range _ m hm
  have hr' := hn.range _ m' hm'
  have := r'.tx4
  rw [h1, r'.id _ ho', syncTxId, idOf_eq _ _ _ (by omega) (by omega), r.nr] at hid
  omega

/-- silent modules of the specification do not take part -/
def SilentOff (t : Table) : Prop := ∀ (i : Nat) (m : Mod), t.mods[i]? = some m → t.awake i = 0 → m.on = false

theorem SilentOff.switchTo {t : Table} (h : SilentOff t) (tp st : Nat) (b : Bool) (hb : b = true → st ≠ 0) :
    SilentOff ⟨switch t.mods tp b, upd t.awake tp st⟩ := by
  intro i m hm haw
  simp only [switch_get, Option.map_eq_some_iff] at hm
  obtain ⟨m0, h0, rfl⟩ := hm
  simp only [upd] at haw
  by_cases e : tp = i
  · subst e
    simp only [if_true] at haw ⊢
    cases b with
    | true => exact absurd haw (hb rfl)
    | false => rfl
  · rw [if_neg (fun hh => e hh.symm)] at haw
    simp only [e, if_false]
    exact h i m0 h0 haw

theorem SilentOff.critical {t : Table} (h : SilentOff t) (tp : Nat) :
    SilentOff { t with mods := switch t.mods tp false } := by
  intro i m hm haw
  simp only [switch_get, Option.map_eq_some_iff] at hm
  obtain ⟨m0, h0, rfl⟩ := hm
  simp only at haw
  split
  · rfl
  · exact h i m0 h0 haw

theorem SilentOff.step {t : Table} (h : SilentOff t) (maxMod : Nat) (op : Op) (hs : StateOk op)
    (hna : ∀ typ, op ≠ .setActive typ) : SilentOff (t.step maxMod true op).1 := by
  cases op with
  | add tpl nr rx tx =>
    simp only [Table.step]; split
    · exact h
    · intro i m hm haw
      simp only [List.getElem?_append] at hm
      split at hm
      · exact h i m hm haw
      · next hl =>
        have h1 : i - t.mods.length < 1 := by
          have := (List.getElem?_eq_some_iff.1 hm).1; simpa using this
        have h2 : i = t.mods.length := by omega
        subst h2
        simp only [Nat.sub_self, List.getElem?_cons_zero, Option.some.injEq] at hm
        rw [← hm]
        simp only at haw
        simp [haw]
  | silentAwake tp st =>
    simp only [StateOk] at hs
    simp only [Table.step]
    split
    · exact h
    · split
      · exact h.switchTo _ _ _ (by simp)
      · split
        · exact h.switchTo _ _ _ (fun _ => by assumption)
        · omega
  | silentAwakeBy typ nr st =>
    simp only [StateOk] at hs
    simp only [Table.step]
    split
    · exact h
    · split
      · exact h.switchTo _ _ _ (by simp)
      · split
        · exact h.switchTo _ _ _ (fun _ => by assumption)
        · omega
  | setActive typ => exact absurd rfl (hna typ)
  | setCritical typ =>
    simp only [Table.step]; split
    · exact h
    · exact h.critical _
  | _ => exact h

theorem SilentOff.run (maxMod : Nat) (ops : List Op) : ∀ {t : Table}, SilentOff t →
    (∀ o ∈ ops, StateOk o ∧ ∀ typ, o ≠ .setActive typ) → SilentOff (Table.run maxMod t ops) := by
  induction ops with
  | nil => exact fun h _ => h
  | cons o os ih =>
    intro t h hb
    exact ih (h.step maxMod o (hb o (by simp)).1 (hb o (by simp)).2) (fun x hx => hb x (by simp [hx]))

/-- C11: after any history without `set_active`, number or type changes and with sufficient
message objects, a SILENT module transmits no process data.  Missing for the full claim: it is
false for the excluded calls, see the three counterexamples. -/
theorem C11_silent_partial (env : Env) (he : EnvOk env) (hhw : ∀ k, env.hwOk k = true)
    (mem : Nat → List Byte) (ops : List Op)
    (hok : (Node.init env (boot mem)).2 = E.ok)
    (hb : ∀ o ∈ ops, Basic o ∧ StateOk o ∧ ∀ typ, o ≠ .setActive typ)
    (hneed : (ops.map need).sum + (if env.sysObj2 then 5 else 4) ≤ env.nObj) (i : Nat) :
    let n := Node.run env (Node.init env (boot mem)).1 ops
    (n.rows i).typ ≠ [] → n.silent i = 0 →
    ∃ (n' : Node) (evs : List Ev), sendProcessData env n = some n' ∧ n'.log = evs ++ n.log ∧ ∀ e ∈ evs, ¬ FrameOfRow n i e := by
  intro n hreg hsil
  have h1 := (Good.complete he hhw ops (fun o ho => ⟨(hb o ho).1, (hb o ho).2.1⟩) (Good.init he mem hok)
    (by simp [Table.empty]) (by rw [freeCnt_init he mem hok]; omega) (by simp [Table.empty])).1
  have hg := Good.run he ops (fun o ho => (hb o ho).1) (Good.init he mem hok)
  have hn : NrInv (specRun env (Node.init env (boot mem)).1 Table.empty ops).mods :=
    NrInv.specRun ops (by constructor <;> simp [Table.empty])
  rw [h1] at hg hn
  have hso := SilentOff.run env.maxMod ops (t := Table.empty) (by simp [SilentOff, Table.empty])
    (fun o ho => (hb o ho).2)
  obtain ⟨m, hm, _⟩ := hg.sim.get hreg
  have : m.on = false := hso i m hm (by rw [← hg.sim.awake]; exact hsil)
  exact off_no_frames he hg hn hm this

example :
    let n := Node.run exEnv (exInit exEnv) (exOps ++ [.silentAwake 0 0])
    (n.rows 0).typ ≠ [] ∧ n.silent 0 = 0 := by decide +kernel

/-- C11 is false with `lcsa_set_module_active`: it makes a SILENT module transmit. -/
theorem C11_counterexample_active :
    let n := Node.run exEnv (exInit exEnv) (exOps ++ [.silentAwake 0 0, .setActive [77, 68, 65]])
    Reach exEnv n ∧ n.silent 0 = 0 ∧
    (sendProcessData exEnv n).map (fun n' => (n'.log.take 5).filterMap frameOf |>.map (·.id)) =
      some [0x422, 0x421, 0x420, 0x411, 0x410] := by
  refine ⟨exReach _ (by simp [exOps, Basic, exTpl]), by decide +kernel, by decide +kernel⟩

/-- C11 is false when a registration cannot be completed: row 1 is SILENT, then a module is
registered there while only one message object is left.  The module transmits. -/
theorem C11_counterexample_registration :
    let n := Node.run exSmall (exInit exSmall)
      [.add (exTpl 65 4 0) 5 (fun _ => 1) (fun _ => 2), .silentAwake 1 0,
       .add { exTpl 66 2 1 with txMainSync := fun _ => .app 0 } 9 (fun _ => 3) (fun _ => 4)]
    Reach exSmall n ∧ n.silent 1 = 0 ∧
    (sendProcessData exSmall n).map (fun n' => (n'.log.take 1).filterMap frameOf |>.map (·.id)) =
      some [0x420] := by
  refine ⟨exReachSmall _ (by simp [Basic, exTpl]), by decide +kernel, by decide +kernel⟩

/-- C11 is false when a number change fails half-way: the single module is SILENT, all message
objects are in use, the change of its number from 5 to 6 is answered with an error.  The module
transmits, with identifiers of the new number. -/
theorem C11_counterexample_number_change :
    let env := { exEnv with nObj := 11 }
    let n := Node.run env (exInit env)
      [.add (exTpl 65 4 1) 5 (fun _ => 1) (fun _ => 2), .add (exTpl 66 0 1) 9 (fun _ => 3) (fun _ => 4),
       .silentAwake 0 0]
    let r := changeNr env n [77, 68, 65] 6 5
    Reach env n ∧ r.2 = E.noMsgObjFree ∧ r.1.silent 0 = 0 ∧
    r.1.tx.reg.getLsbD 0 = true ∧ r.1.tx.id 0 0 = 0x414 := by
  refine ⟨exReachSmall _ (by simp [Basic, exTpl]), by decide +kernel, by decide +kernel, by decide +kernel,
    by decide +kernel⟩

/-- calls that switch row `i` on again: an AWAKE request for the row, or `set_active` naming its
type.  (A full model of "until then" in C13.) -/
def Wakes (n : Node) (i : Nat) : Op → Prop
  | .silentAwake tp st => tp = i ∧ st = 1
  | .silentAwakeBy typ nr st => st = 1 ∧ (n.rows i).typ = typ ∧ (n.rows i).nr = nr
  | .setActive typ => (n.rows i).typ = typ
  | _ => False

/-- no call of the history wakes row `i` -/
def NeverWakes (env : Env) (i : Nat) : Node → List Op → Prop
  | _, [] => True
  | n, o :: os => ¬ Wakes n i o ∧ NeverWakes env i (Node.step env n o).1 os

theorem switch_off_get {l : List Mod} {tp i : Nat} {b : Bool} {m : Mod} (h : l[i]? = some m)
    (hoff : m.on = false) (hne : b = true → tp ≠ i) : ∃ m', (switch l tp b)[i]? = some m' ∧ m'.on = false := by
  rw [switch_get, h]
  refine ⟨_, rfl, ?_⟩
  split
  · next e =>
    cases b with
    | true => exact absurd e (hne rfl)
    | false => rfl
  · exact hoff

theorem off_step {env : Env} {n : Node} {t : Table} (h : Sim env n t) (maxMod : Nat) (ok : Bool) (op : Op)
    {i : Nat} {m : Mod} (hm : t.mods[i]? = some m) (hoff : m.on = false) (hw : ¬ Wakes n i op) :
    ∃ m', (t.step maxMod ok op).1.mods[i]? = some m' ∧ m'.on = false := by
  have r := h.row i m hm
  cases op with
  | add tpl nr rx tx =>
    simp only [Table.step]; split
    · exact ⟨m, hm, hoff⟩
    · refine ⟨m, ?_, hoff⟩
      have := (List.getElem?_eq_some_iff.1 hm).1
      rw [List.getElem?_append_left this]; exact hm
  | silentAwake tp st =>
    simp only [Wakes, not_and] at hw
    simp only [Table.step]
    split
    · exact ⟨m, hm, hoff⟩
    · split
      · exact switch_off_get hm hoff (by simp)
      · split
        · next h1 => exact switch_off_get hm hoff (fun _ e => hw e h1)
        · exact ⟨m, hm, hoff⟩
  | silentAwakeBy typ nr st =>
    simp only [Wakes, not_and] at hw
    simp only [Table.step]
    split
    · exact ⟨m, hm, hoff⟩
    · next tp hf =>
      split
      · exact switch_off_get hm hoff (by simp)
      · split
        · next h1 =>
          refine switch_off_get hm hoff (fun _ e => ?_)
          subst e
          have := List.findIdx?_eq_some_iff_getElem.1 hf
          obtain ⟨hl, h2, _⟩ := this
          have hmm : t.mods[tp] = m := by
            have := List.getElem?_eq_getElem hl; rw [hm] at this; simpa using this.symm
          simp only [hmm, decide_eq_true_eq] at h2
          exact hw h1 (by rw [r.typ]; exact h2.1) (by rw [r.nr]; exact h2.2)
        · exact ⟨m, hm, hoff⟩
  | setActive typ =>
    simp only [Wakes] at hw
    simp only [Table.step]
    split
    · exact ⟨m, hm, hoff⟩
    · next tp hf =>
      refine switch_off_get hm hoff (fun _ e => ?_)
      subst e
      obtain ⟨hl, h2, _⟩ := List.findIdx?_eq_some_iff_getElem.1 hf
      have hmm : t.mods[tp] = m := by
        have := List.getElem?_eq_getElem hl; rw [hm] at this; simpa using this.symm
      simp only [hmm, decide_eq_true_eq] at h2
      exact hw (by rw [r.typ]; exact h2)
  | setCritical typ =>
    simp only [Table.step]
    split
    · exact ⟨m, hm, hoff⟩
    · exact switch_off_get hm hoff (by simp)
  | _ => exact ⟨m, hm, hoff⟩

theorem off_run {env : Env} (he : EnvOk env) (i : Nat) (ops : List Op) : ∀ {n : Node} {t : Table},
    (∀ o ∈ ops, Basic o) → Good env n t → NrInv t.mods → (∃ m, t.mods[i]? = some m ∧ m.on = false) →
    NeverWakes env i n ops →
    ∃ t', Good env (Node.run env n ops) t' ∧ NrInv t'.mods ∧ ∃ m, t'.mods[i]? = some m ∧ m.on = false := by
  induction ops with
  | nil => intro n t _ hg hn hm _; exact ⟨t, hg, hn, hm⟩
  | cons o os ih =>
    intro n t hb hg hn hm hw
    obtain ⟨m, hm, hoff⟩ := hm
    exact ih (fun x hx => hb x (by simp [hx])) (hg.step he o (hb o (by simp))).1 (hn.step _ _ _)
      (off_step hg.sim _ _ o hm hoff hw.1) hw.2

/-- C13: after `lcsa_set_module_critical` found the module (row `i`), and for any further calls
none of which wakes it, no process data of it is transmitted, and no receive object of it is
required for the process image (`rx_obj_sync` is 0, see C15). -/
theorem C13_critical_stays_out (env : Env) (he : EnvOk env) (n : Node) (h : Reach env n) (typ : List Byte)
    (hne : typ ≠ []) (i : Nat) (hi : i < env.maxMod) (hti : (n.rows i).typ = typ)
    (hfirst : ∀ j < i, (n.rows j).typ ≠ typ) (ops : List Op) (hb : ∀ o ∈ ops, Basic o)
    (hw : NeverWakes env i (setCritical env n typ).1 ops) :
    let n1 := Node.run env (setCritical env n typ).1 ops
    (∃ (n' : Node) (evs : List Ev), sendProcessData env n1 = some n' ∧ n'.log = evs ++ n1.log ∧ ∀ e ∈ evs, ¬ FrameOfRow n1 i e) ∧
    (n1.rows i).rxObjSync = 0 := by
  intro n1
  obtain ⟨t, hg, hn⟩ := h.good he
  have hst := hg.step he (.setCritical typ) hne
  have hreg : (n.rows i).typ ≠ [] := by rw [hti]; exact hne
  obtain ⟨m, hm, r⟩ := hg.sim.get hreg
  have hfind : (t.mods.findIdx? fun m => decide (m.typ = typ)) = some i := by
    rw [List.findIdx?_eq_some_iff_getElem]
    have hl := (List.getElem?_eq_some_iff.1 hm).1
    have hmm : t.mods[i] = m := by
      have := List.getElem?_eq_getElem hl; rw [hm] at this; simpa using this.symm
    refine ⟨hl, ?_, ?_⟩
    · rw [hmm, ← r.typ, hti]; simp
    · intro j hj
      have hjl : j < t.mods.length := by omega
      rw [← (hg.sim.row j t.mods[j] (by simp)).typ]
      simpa using hfirst j hj
  have hoff : ∃ m', (t.step env.maxMod (regOk env n (.setCritical typ)) (.setCritical typ)).1.mods[i]? = some m' ∧
      m'.on = false := by
    simp only [Table.step, hfind, switch_get, hm]
    exact ⟨_, rfl, by simp⟩
  obtain ⟨t', hg', hn', m', hm', hoff'⟩ := off_run he i ops hb hst.1 (hn.step _ _ _) hoff hw
  refine ⟨off_no_frames he hg' hn' hm' hoff', ?_⟩
  have := (hg'.sim.row i m' hm').rxs trivial
  rw [hoff'] at this
  exact this

example : NeverWakes exEnv 0 (setCritical exEnv (Node.run exEnv (exInit exEnv) exOps) [77, 68, 65]).1
    [.process, .silentAwake 1 0, .silentAwake 1 1, .setActive [77, 68, 66]] := by
  refine ⟨fun h => h, ?_, ?_, ?_, trivial⟩
  · intro h; exact absurd h.1 (by decide)
  · intro h; exact absurd h.1 (by decide)
  · intro h; simp only [Wakes] at h; revert h; decide +kernel

/-- The documentation of `lcsa_set_module_critical` (li_can_slv_api.h:86-87: "there is no way to
bring the module back in a non critical state") is wrong: an AWAKE request makes the module
transmit again. -/
theorem C13_counterexample_no_way_back :
    let n := Node.run exEnv (exInit exEnv) (exOps ++ [.setCritical [77, 68, 65], .silentAwake 0 1])
    Reach exEnv n ∧
    (sendProcessData exEnv n).map (fun n' => (n'.log.take 5).filterMap frameOf |>.map (·.id)) =
      some [0x422, 0x421, 0x420, 0x411, 0x410] := by
  refine ⟨exReach _ (by simp [exOps, Basic, exTpl]), by decide +kernel⟩

/-! ## C12 -/

/-- C12: a system answer on behalf of module number `nr` is handed to the driver only if a row
with that number exists and is AWAKE, with the identifier of the number and length 8; nothing
else changes. -/
theorem C12_silent_no_system_answer (env : Env) (n : Node) (nr : Nat) (data : List Byte)
    (hnr : 1 ≤ nr ∧ nr ≤ 128) :
    let n' := (sendSys env n nr data).1
    n' = n ∨ (∃ tp < env.maxMod, (n.rows tp).nr = nr ∧ n.silent tp = 1 ∧
      (∀ j < tp, (n.rows j).nr ≠ nr) ∧
      n' = { n with sendN := n.sendN + 1
                    log := .frame ⟨3 + 4 * (nr - 1), 8, data⟩ (env.sendOk n.sendN) :: n.log }) := by
  intro n'
  show (sendSys env n nr data).1 = n ∨ _
  unfold sendSys
  cases hf : n.findNr env nr with
  | none => exact .inl rfl
  | some tp =>
    simp only [findNr, List.find?_range_eq_some, decide_eq_true_eq] at hf
    obtain ⟨h1, h2, h3⟩ := hf
    simp only
    split
    · next hs =>
      right
      refine ⟨tp, by simpa using h2, h1, hs, ?_, ?_⟩
      · intro j hj; have := h3 j hj; simpa using this
      · show (sendSys env n nr data).1 = _
        have hf' : n.findNr env nr = some tp := by
          simp only [findNr, List.find?_range_eq_some, decide_eq_true_eq]; exact ⟨h1, h2, h3⟩
        simp only [sendSys, hf', hs, if_true, send, sysTxId]
        rw [idOf_eq _ _ _ hnr.1 (by omega)]
        congr 3
        simp only [Ev.frame.injEq, Frame.mk.injEq, and_true]
        omega
    · exact .inl rfl

/-- C12 for registered modules: while the (only) row with the number is SILENT, nothing is sent. -/
theorem C12_registered (env : Env) (he : EnvOk env) (n : Node) (h : Reach env n) (i : Nat)
    (hi : (n.rows i).typ ≠ []) (hs : n.silent i ≠ 1) (data : List Byte)
    (hun : ∀ j < env.maxMod, (n.rows j).typ = [] → (n.rows j).nr ≠ (n.rows i).nr) :
    (sendSys env n (n.rows i).nr data).1 = n := by
  unfold sendSys
  cases hf : n.findNr env (n.rows i).nr with
  | none => rfl
  | some tp =>
    simp only [findNr, List.find?_range_eq_some, decide_eq_true_eq] at hf
    have htp : tp = i := by
      by_cases e : tp = i
      · exact e
      · have hreg : (n.rows tp).typ ≠ [] := fun hh => hun tp (by simpa using hf.2.1) hh hf.1
        exact absurd hf.1 (C04_numbers_distinct env he n h tp i hreg hi e)
    subst htp
    simp [hs]

example : let n := Node.run exEnv (exInit exEnv) (exOps ++ [.silentAwake 0 0])
    (n.rows 0).typ ≠ [] ∧ n.silent 0 ≠ 1 ∧
    (sendSys exEnv n 5 [1, 2, 3, 4, 5, 6, 7, 8]).1.log.length = n.log.length ∧
    (sendSys exEnv n 9 [1, 2, 3, 4, 5, 6, 7, 8]).1.log =
      .frame ⟨0x23, 8, [1, 2, 3, 4, 5, 6, 7, 8]⟩ true :: n.log := by decide +kernel

end LiCan
