import Verif.Props.Sync
/-! # Data of a module that became silent: C100 -/
namespace LiCan
open Node Spec
namespace Node

/-- the receive conversions with zeros, one object after the other -/
theorem zeros_run (env : Env) (tp : Nat) (n : Node) (k : Nat)
    (hk : ∀ j < k, ∃ a, (n.rows tp).rxMain j = .app a) (hd : ∀ i < k, ∀ j < k, (n.rows tp).rx i = (n.rows tp).rx j → i = j) :
    let n' := forDo (fun i n =>
      (n.callRx env ((n.rows tp).rxMain i) zeros8 ((n.rows tp).rx i) ((n.rows tp).rxDlc i)).1) (List.range k) n
    n'.rows = n.rows ∧ n'.ub = n.ub ∧
    (∀ j < k, ∀ a, (n.rows tp).rxMain j = .app a → n'.mem ((n.rows tp).rx j) =
      (env.rxConv a [0, 0, 0, 0, 0, 0, 0, 0] ((n.rows tp).rxDlc j) (n.mem ((n.rows tp).rx j))).1) ∧
    (∀ p, (∀ j < k, (n.rows tp).rx j ≠ p) → n'.mem p = n.mem p) := by
  induction k with
  | zero => exact ⟨rfl, rfl, fun j hj => absurd hj (by omega), fun _ _ => rfl⟩
  | succ k ih =>
    have ih := ih (fun j hj => hk j (by omega)) (fun i hi j hj => hd i (by omega) j (by omega))
    rw [forDo_range_succ]
    dsimp only at ih ⊢
    generalize forDo (fun i n =>
      (n.callRx env ((n.rows tp).rxMain i) zeros8 ((n.rows tp).rx i) ((n.rows tp).rxDlc i)).1) (List.range k) n = x at ih ⊢
    obtain ⟨i1, i2, i3, i4⟩ := ih
    obtain ⟨a, ha⟩ := hk k (by omega)
    rw [i1, ha]
    simp only [callRx]
    have hold : x.mem ((n.rows tp).rx k) = n.mem ((n.rows tp).rx k) :=
      i4 _ fun j hj e => by have := hd j (by omega) k (by omega) e; omega
    refine ⟨i1, i2, ?_, ?_⟩
    · intro j hj b hb
      by_cases e : j = k
      · subst e
        rw [ha] at hb; cases hb
        rw [upd_same, hold]; rfl
      · rw [upd_other _ _ (fun h => e (hd j hj k (by omega) h))]
        exact i3 j (by omega) b hb
    · intro p hp
      rw [upd_other _ _ (fun h => hp k (by omega) h.symm)]
      exact i4 p fun j hj => hp j (by omega)

/-- the node before the zeros are converted -/
theorem syncOff_split (env : Env) (n : Node) (tp : Nat) :
    ∃ n1, syncOff env n tp = forDo (fun i n =>
      (n.callRx env ((n.rows tp).rxMain i) zeros8 ((n.rows tp).rx i) ((n.rows tp).rxDlc i)).1) (List.range (n.rows tp).rxObj) n1 ∧
      n1.rows = upd n.rows tp (offRow (n.rows tp)) ∧ n1.mem = n.mem ∧ n1.ub = n.ub := by
  have keep : ∀ (f : Nat → Node → Node), (∀ i n, (f i n).mem = n.mem ∧ (f i n).ub = n.ub ∧ ((f i n).rows tp).rxObj = (n.rows tp).rxObj) →
      ∀ k n, (forDo f (List.range k) n).mem = n.mem ∧ (forDo f (List.range k) n).ub = n.ub ∧
        ((forDo f (List.range k) n).rows tp).rxObj = (n.rows tp).rxObj := by
    intro f hf k n
    induction k with
    | zero => exact ⟨rfl, rfl, rfl⟩
    | succ k ih =>
      rw [forDo_range_succ]
      exact ⟨(hf _ _).1.trans ih.1, (hf _ _).2.1.trans ih.2.1, (hf _ _).2.2.trans ih.2.2⟩
  unfold syncOff
  dsimp only
  generalize h1 : forDo (fun i n => (n.txOff tp i).setRow tp fun r =>
    { r with txDlcSync := upd r.txDlcSync i 0, txMainSync := upd r.txMainSync i .dummy })
    (List.range ((n.setRow tp fun r => { r with txObjSync := 0 }).rows tp).txObj) (n.setRow tp fun r => { r with txObjSync := 0 }) = a
  generalize h2 : forDo (fun i n => n.setRow tp fun r =>
    { r with rxDlcSync := upd r.rxDlcSync i 0, rxMainSync := upd r.rxMainSync i .dummy })
    (List.range ((a.setRow tp fun r => { r with rxObjSync := 0 }).rows tp).rxObj) (a.setRow tp fun r => { r with rxObjSync := 0 }) = b
  have ka : a.mem = n.mem ∧ a.ub = n.ub ∧ (a.rows tp).rxObj = (n.rows tp).rxObj := by
    rw [← h1]
    obtain ⟨x, y, z⟩ := keep (fun i n => (n.txOff tp i).setRow tp fun r =>
      { r with txDlcSync := upd r.txDlcSync i 0, txMainSync := upd r.txMainSync i .dummy })
      (fun i n => by simp [setRow, txOff]) ((n.setRow tp fun r => { r with txObjSync := 0 }).rows tp).txObj
      (n.setRow tp fun r => { r with txObjSync := 0 })
    exact ⟨x, y, z.trans (by simp [setRow])⟩
  have kb : b.mem = a.mem ∧ b.ub = a.ub ∧ (b.rows tp).rxObj = (a.rows tp).rxObj := by
    rw [← h2]
    obtain ⟨x, y, z⟩ := keep (fun i n => n.setRow tp fun r =>
      { r with rxDlcSync := upd r.rxDlcSync i 0, rxMainSync := upd r.rxMainSync i .dummy })
      (fun i n => by simp [setRow]) ((a.setRow tp fun r => { r with rxObjSync := 0 }).rows tp).rxObj
      (a.setRow tp fun r => { r with rxObjSync := 0 })
    exact ⟨x, y, z.trans (by simp [setRow])⟩
  have hb : (b.rows tp).rxObj = (n.rows tp).rxObj := kb.2.2.trans ka.2.2
  refine ⟨b, by rw [hb], ?_, kb.1.trans ka.1, kb.2.1.trans ka.2.1⟩
  obtain ⟨m, u, e⟩ := syncOff_eq env n tp
  have e' := congrArg Node.rows e
  unfold syncOff at e'
  dsimp only at e'
  rw [h1, h2] at e'
  have rr : ∀ k x, (forDo (fun i (n : Node) =>
      (n.callRx env ((n.rows tp).rxMain i) zeros8 ((n.rows tp).rx i) ((n.rows tp).rxDlc i)).1) (List.range k) x).rows = x.rows := by
    intro k x
    induction k with
    | zero => rfl
    | succ k ih =>
      rw [forDo_range_succ, ← ih]
      unfold callRx
      split <;> rfl
  rw [rr] at e'
  exact e'

end Node

/-- C100: when a module becomes silent, each of its receive objects is converted once more, from eight zero bytes and
with its configured length, so the application sees the data of zeros; nothing else of the application changes. -/
theorem C100_zeros (env : Env) (n : Node) (i : Nat) (hi : i < env.maxMod)
    (hk : ∀ j < (n.rows i).rxObj, ∃ a, (n.rows i).rxMain j = .app a)
    (hd : ∀ j < (n.rows i).rxObj, ∀ k < (n.rows i).rxObj, (n.rows i).rx j = (n.rows i).rx k → j = k) :
    let r := setSilentAwake env n i 0
    r.2 = E.ok ∧ r.1.ub = n.ub ∧
    (∀ j < (n.rows i).rxObj, ∀ a, (n.rows i).rxMain j = .app a → r.1.mem ((n.rows i).rx j) =
      (env.rxConv a [0, 0, 0, 0, 0, 0, 0, 0] ((n.rows i).rxDlc j) (n.mem ((n.rows i).rx j))).1) ∧
    (∀ p, (∀ j < (n.rows i).rxObj, (n.rows i).rx j ≠ p) → r.1.mem p = n.mem p) := by
  intro r
  have hr : r = (syncOff env { n with silent := upd n.silent i 0, log := .silentCb i (n.rows i).nr 0 :: n.log } i, E.ok) := by
    show setSilentAwake env n i 0 = _
    unfold setSilentAwake
    rw [if_pos hi, if_pos rfl]
  clear_value r
  subst hr
  obtain ⟨n1, e, e1, e2, e3⟩ := syncOff_split env { n with silent := upd n.silent i 0, log := .silentCb i (n.rows i).nr 0 :: n.log } i
  dsimp only at e e1 e2 e3 ⊢
  rw [e]
  have row : n1.rows i = offRow (n.rows i) := by rw [e1, upd_same]
  have z := zeros_run env i n1 (n.rows i).rxObj (by rw [row]; exact hk) (by rw [row]; exact hd)
  dsimp only at z
  rw [row, e2, e3] at z
  exact ⟨rfl, z.2.1, z.2.2.1, z.2.2.2⟩

/-- C100: a request for AWAKE changes no application data. -/
theorem C100_awake_keeps (env : Env) (n : Node) (i : Nat) : (setSilentAwake env n i 1).1.mem = n.mem := by
  unfold setSilentAwake
  split
  · rw [if_neg (by omega), if_pos rfl, syncOn_eq]
  · rfl

namespace Slave

/-- C100: as long as the entry of the module is as it was left by the silent request (`n`: the node at the request), the
frames sent to the module change nothing of the application. -/
theorem C100_frames_ignored (env : Env) (he : EnvOk env) (n : Node) (s : Slave) (h : SReach env s) (i : Nat)
    (hi : i < env.maxMod) (hreg : (n.rows i).typ ≠ []) (hrow : s.node.rows i = (setSilentAwake env n i 0).1.rows i)
    (now obj dlc id : Nat) (data : List Byte) (j : Nat) (hj : j < (n.rows i).rxObj)
    (hid : id = 0x200 + 4 * ((n.rows i).nr - 1) + j) (hbus : Delivered env s.node (.frame now obj dlc id data)) :
    ∃ s', step env s (.frame now obj dlc id data) = some s' ∧ s'.node.mem = s.node.mem := by
  have h8 := he.m8
  have row : s.node.rows i = offRow (n.rows i) := by
    rw [hrow]
    unfold setSilentAwake
    rw [if_pos hi, if_pos rfl]
    obtain ⟨m, u, e⟩ := syncOff_eq env { n with silent := upd n.silent i 0, log := .silentCb i (n.rows i).nr 0 :: n.log } i
    rw [e]
    exact upd_same _ _ _
  have hnr : (s.node.rows i).nr = (n.rows i).nr := by rw [row]; rfl
  have hty : (s.node.rows i).typ ≠ [] := by rw [row]; exact hreg
  have hro : (s.node.rows i).rxObj = (n.rows i).rxObj := by rw [row]; rfl
  obtain ⟨-, ti⟩ := h.inv he
  obtain ⟨r1, r2, r3⟩ := ti.registered he hty
  obtain ⟨i', hreg', ⟨j', hj', e⟩, hs⟩ := sync_frame he h hbus (by omega) (by omega)
  obtain ⟨q1, q2, q3⟩ := ti.registered he hreg'
  have := ti.distinct hreg' hty (by omega)
  subst this
  refine ⟨_, hs, ?_⟩
  have hso : syncObjOfId id = j := by unfold syncObjOfId; omega
  unfold rxData
  dsimp only
  rw [hso]
  split
  · rfl
  · split
    · rfl
    · have : (offRow (n.rows i')).rxMainSync j = .dummy := by
        simp only [offRow, first]
        rw [if_pos hj]
      rw [row, this]
      rfl

/-- Module 5 receives, becomes silent (its data become zeros), frames to it and to module 9 arrive, a process request:
the data stay zero; after AWAKE the next frame is converted again. -/
example : (exStart.bind fun s => run exEnv s [exF5, exF5']).map (fun s => (s.node.mem 100, s.node.mem 101)) =
      some ([1, 2], [3, 4]) ∧
    (exStart.bind fun s => run exEnv s [exF5, exF5', .table (.silentAwake 0 0), exF5, exF9, exReq 1]).map
      (fun s => (s.node.mem 100, s.node.mem 101, s.node.mem 120)) = some ([0, 0], [0, 0], [5, 6]) ∧
    (exStart.bind fun s => run exEnv s [.table (.silentAwake 0 0), .table (.silentAwake 0 1), exF5']).map
      (fun s => (s.node.mem 100, s.node.mem 101)) = some ([0, 0], [3, 4]) := by decide +kernel

/-- the hypotheses of `C100_zeros` for this module -/
example : exStart.map (fun s => (decide (0 < exEnv.maxMod), (s.node.rows 0).rxObj, (s.node.rows 0).rx 0, (s.node.rows 0).rx 1,
    (s.node.rows 0).rxMain 0, (s.node.rows 0).rxMain 1)) =
    exStart.map (fun _ => (true, 2, 100, 101, Conv.app 0, Conv.app 0)) := by decide +kernel

end Slave
end LiCan
