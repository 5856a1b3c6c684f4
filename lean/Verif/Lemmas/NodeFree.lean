import Verif.Lemmas.NodeHw
/-! # A registration succeeds if there are enough message objects -/
namespace LiCan.Node

theorem forErr_ok {f : Nat → Node → Node × Err} (P : Nat → Node → Prop) (k : Nat)
    (hs : ∀ j < k, ∀ n, P j n → (f j n).2 = E.ok ∧ P (j + 1) (f j n).1) (n : Node) (h0 : P 0 n) :
    (forErr f (List.range k) n).2 = E.ok ∧ P k (forErr f (List.range k) n).1 := by
  induction k with
  | zero => exact ⟨rfl, h0⟩
  | succ k ih =>
    have ih := ih fun j hj => hs j (by omega)
    rw [forErr_range_succ, thenOk, if_pos ih.1]
    exact hs k (by omega) _ ih.2

theorem freeCnt_congr (env : Env) (n n' : Node) (h : n'.hw.used = n.hw.used) :
    freeCnt env n' = freeCnt env n := by simp only [freeCnt, h]

theorem define_ok (env : Env) (n : Node) (o : Nat) (d : ObjDef) (hhw : ∀ k, env.hwOk k = true)
    (ho : o < env.nObj) : (define env n o d).2 = E.ok := by
  rcases define_cases env n o d ho with ⟨_, h⟩ | ⟨h, _⟩
  · rw [h]
  · rw [hhw] at h; cases h

theorem define_used (env : Env) (n : Node) (o x : Nat) (d : ObjDef) (ho : o < env.nObj)
    (h : n.hw.used x = true) : (define env n o d).1.hw.used x = true := by
  rcases define_cases env n o d ho with ⟨_, e⟩ | ⟨_, e⟩ <;> rw [e] <;> simp only [upd] <;> split <;>
    first | rfl | exact h

theorem setRx1_ok (env : Env) (i nr k : Nat) (n : Node) (hhw : ∀ k, env.hwOk k = true)
    (hf : 0 < freeCnt env n) (hs : n.slots.length < 4 * env.maxMod) :
    let r := Node.setRx1 env i nr k n
    r.2 = E.ok ∧ freeCnt env r.1 + 1 = freeCnt env n ∧ r.1.slots.length = n.slots.length + 1 ∧
    (∀ x, n.hw.used x = true → r.1.hw.used x = true) := by
  obtain ⟨o, ho⟩ := nextFree_of_pos hf
  obtain ⟨h1, h2⟩ := nextFree_some ho
  simp only [Node.setRx1]
  have hnf : nextFree env (n.setRow i fun r => { r with rxDlcSync := upd r.rxDlcSync k (r.rxDlc k) }) =
      nextFree env n := rfl
  rw [hnf, ho]
  simp only
  generalize hn1 : ((n.setRow i fun r => { r with rxDlcSync := upd r.rxDlcSync k (r.rxDlc k) }).setRow i
        fun r => { r with rxMsgObj := upd r.rxMsgObj k o }) = n1
  have a1 : n1.hw = n.hw := by rw [← hn1]; rfl
  have a2 : n1.slots = n.slots := by rw [← hn1]; rfl
  have hok := define_ok env n1 o ⟨syncRxId nr k, 0x7FF#16, (n1.rows i).rxDlc k, .rx true⟩ hhw h1
  have hfc := define_freeCnt env n1 o ⟨syncRxId nr k, 0x7FF#16, (n1.rows i).rxDlc k, .rx true⟩ h1
    (by rw [a1]; exact h2)
  have hus := fun x => define_used env n1 o x ⟨syncRxId nr k, 0x7FF#16, (n1.rows i).rxDlc k, .rx true⟩ h1
  obtain ⟨hw, u, he⟩ := define_eq env n1 o ⟨syncRxId nr k, 0x7FF#16, (n1.rows i).rxDlc k, .rx true⟩
  rw [thenOk, if_pos hok, addSlot]
  have hsl : (define env n1 o ⟨syncRxId nr k, 0x7FF#16, (n1.rows i).rxDlc k, .rx true⟩).1.slots = n.slots := by
    rw [he]; exact a2
  rw [if_pos (by rw [hsl]; exact hs)]
  refine ⟨rfl, ?_, ?_, ?_⟩
  · have : freeCnt env n1 = freeCnt env n := freeCnt_congr env n n1 (by rw [a1])
    rw [← this, ← hfc]; rfl
  · simp [hsl]
  · intro x hx; exact hus x (by rw [a1]; exact hx)

theorem defineCtrl_ok (env : Env) (n : Node) (idx nr : Nat) (hhw : ∀ k, env.hwOk k = true)
    (hf : 0 < freeCnt env n) (hi : idx < env.maxMod) :
    let r := Node.defineCtrl env n idx nr
    r.2 = E.ok ∧ freeCnt env r.1 + 1 = freeCnt env n ∧
    (∀ x, n.hw.used x = true → r.1.hw.used x = true) := by
  obtain ⟨o, ho⟩ := nextFree_of_pos hf
  obtain ⟨h1, h2⟩ := nextFree_some ho
  simp only [Node.defineCtrl, ho]
  rw [if_neg (by omega)]
  exact ⟨define_ok _ _ _ _ hhw h1, define_freeCnt env _ o _ h1 h2, fun x hx => define_used _ _ _ _ _ h1 hx⟩

theorem filters_ok' (env : Env) (nrs : List Nat) (r : Node × Err) (hhw : ∀ k, env.hwOk k = true)
    (hn : 10 < env.nObj) (hfx : ∀ o, Fixed env o → r.1.hw.used o = true) (hr : r.2 = E.ok) :
    (filters env nrs r).2 = E.ok ∧ freeCnt env (filters env nrs r).1 = freeCnt env r.1 := by
  have step : ∀ (r : Node × Err) o d, r.2 = E.ok → (∀ o, Fixed env o → r.1.hw.used o = true) →
      Fixed env o →
      (thenOk r fun n => define env n o d).2 = E.ok ∧
      freeCnt env (thenOk r fun n => define env n o d).1 = freeCnt env r.1 ∧
      (∀ o', Fixed env o' → (thenOk r fun n => define env n o d).1.hw.used o' = true) := by
    intro r o d h1 h2 h3
    have ho : o < env.nObj := by unfold Fixed at h3; omega
    rw [thenOk, if_pos h1]
    exact ⟨define_ok _ _ _ _ hhw ho, define_freeCnt_used _ _ _ _ ho (h2 o h3),
      fun x hx => define_used _ _ _ _ _ ho (h2 x hx)⟩
  unfold filters
  simp only
  have s1 := step r 6 ⟨0x602, acceptMask nrs, 8, .asyncRx⟩ hr hfx (by simp [Fixed])
  have s2 := step _ 2 ⟨0x002, acceptMask nrs, 8, .rx false⟩ s1.1 s1.2.2 (by simp [Fixed])
  by_cases hs : env.sysObj2 = true
  · have s3 := step _ 3 ⟨0x002, acceptMask nrs, 8, .rx false⟩ s2.1 s2.2.2 (by simp [Fixed, hs])
    simp only [hs, if_true]
    exact ⟨s3.1, by rw [s3.2.1, s2.2.1, s1.2.1]⟩
  · simp only [hs, Bool.false_eq_true, if_false]
    rw [thenOk, if_pos s2.1]
    exact ⟨rfl, by rw [s2.2.1, s1.2.1]⟩

/-- With enough free message objects and a working controller the module is configured. -/
theorem setModule_ok {env : Env} {i nr : Nat} {n : Node} {tpl : Row} {rx tx : Nat → Nat}
    (hhw : ∀ k, env.hwOk k = true) (hn2 : 10 < env.nObj)
    (hfx : ∀ o, Fixed env o → n.hw.used o = true)
    (hi : i < env.maxMod) (h4 : tpl.txObj ≤ 4) (hidx : n.nrMod < env.maxMod)
    (hsl : n.slots.length + tpl.rxObj ≤ 4 * env.maxMod) (hst : n.silent i = 0 ∨ n.silent i = 1)
    (hf : tpl.rxObj + 1 ≤ freeCnt env n) :
    (Node.setModule env n i tpl nr rx tx).2 = E.ok ∧
    freeCnt env (Node.setModule env n i tpl nr rx tx).1 + (tpl.rxObj + 1) = freeCnt env n := by
  generalize hr : Node.setModule env n i tpl nr rx tx = r
  simp only [Node.setModule] at hr
  have hset : setTx env (n.fillRow i tpl (effNr i nr) rx tx) i (effNr i nr) = _ :=
    setTx_eq env _ _ _ hi (by simpa [fillRow, setRow] using h4)
  rw [hset, thenOk_ok] at hr
  generalize hn1 : ({ n.fillRow i tpl (effNr i nr) rx tx with
      rows := upd (n.fillRow i tpl (effNr i nr) rx tx).rows i
        { (n.fillRow i tpl (effNr i nr) rx tx).rows i with
          txDlcSync := first ((n.fillRow i tpl (effNr i nr) rx tx).rows i).txObj
            ((n.fillRow i tpl (effNr i nr) rx tx).rows i).txDlc
            ((n.fillRow i tpl (effNr i nr) rx tx).rows i).txDlcSync }
      tx := cnfgTx (n.fillRow i tpl (effNr i nr) rx tx).tx
        ((n.fillRow i tpl (effNr i nr) rx tx).rows i).txDlc i (effNr i nr)
        ((n.fillRow i tpl (effNr i nr) rx tx).rows i).txObj } : Node) = n1 at hr
  have b1 : n1.hw = n.hw := by rw [← hn1]; rfl
  have b2 : n1.slots = n.slots := by rw [← hn1]; rfl
  have b4 : n1.nrMod = n.nrMod := by rw [← hn1]; rfl
  have b5 : n1.silent = n.silent := by rw [← hn1]; rfl
  have b7 : (n1.rows i).rxObj = tpl.rxObj := by rw [← hn1]; simp [fillRow, setRow]
  have rx1 : (Node.setRx env n1 i (effNr i nr)).2 = E.ok ∧
      (freeCnt env (Node.setRx env n1 i (effNr i nr)).1 + tpl.rxObj = freeCnt env n ∧
       (Node.setRx env n1 i (effNr i nr)).1.slots.length = n.slots.length + tpl.rxObj ∧
       (∀ x, n.hw.used x = true → (Node.setRx env n1 i (effNr i nr)).1.hw.used x = true)) := by
    unfold Node.setRx
    simp only
    have hrx : ((n1.setRow i fun r => { r with rxObjSync := r.rxObj }).rows i).rxObj = tpl.rxObj := by
      simp [setRow, b7]
    rw [hrx]
    refine forErr_ok (fun k x => freeCnt env x + k = freeCnt env n ∧
      x.slots.length = n.slots.length + k ∧ (∀ y, n.hw.used y = true → x.hw.used y = true)) _ ?_ _ ?_
    · rintro j hj x ⟨p1, p2, p3⟩
      have := setRx1_ok env i (effNr i nr) j x hhw (by omega) (by omega)
      simp only at this
      exact ⟨this.1, by omega, by omega, fun y hy => this.2.2.2 y (p3 y hy)⟩
    · refine ⟨?_, ?_, ?_⟩
      · exact freeCnt_congr env n _ (by simp only [setRow, b1])
      · simp [setRow, b2]
      · intro y hy; simpa [setRow, b1] using hy
  have r2 := setRx_rxOnly env n1 i (effNr i nr)
  have sil2 : (Node.setRx env n1 i (effNr i nr)).1.silent = n.silent ∧
      (Node.setRx env n1 i (effNr i nr)).1.nrMod = n.nrMod := by
    obtain ⟨_, _, _, _, _, _, e⟩ := r2; rw [e]; simp [setRow, b5, b4]
  generalize Node.setRx env n1 i (effNr i nr) = q at hr rx1 sil2
  obtain ⟨n2, e2⟩ := q
  simp only at rx1 sil2
  obtain ⟨rfl, c1, c2, c3⟩ := rx1
  rw [thenOk_ok, finish_eq, finishHw_eq] at hr
  have hd := defineCtrl_ok env n2 n2.nrMod (effNr i nr) hhw (by omega) (by rw [sil2.2]; exact hidx)
  simp only at hd
  have hfl := filters_ok' env ((List.range (i + 1)).map fun i => (n2.rows i).nr)
    (Node.defineCtrl env n2 n2.nrMod (effNr i nr)) hhw hn2
    (fun o ho => hd.2.2 o (c3 o (hfx o ho))) hd.1
  have h3 := finishHw_hwOnly env n2 n2.nrMod (effNr i nr) ((List.range (i + 1)).map fun i => (n2.rows i).nr)
  rw [finishHw_eq] at h3
  generalize filters env ((List.range (i + 1)).map fun i => (n2.rows i).nr)
    (Node.defineCtrl env n2 n2.nrMod (effNr i nr)) = q3 at hr hfl h3
  obtain ⟨n3, e3⟩ := q3
  simp only at hfl h3
  obtain ⟨rfl, hfl⟩ := hfl
  rw [thenOk_ok] at hr
  have hs3 : n3.silent = n.silent := by obtain ⟨_, _, _, _, e⟩ := h3; rw [e]; exact sil2.1
  have hs4 := setSilentAwake_sameHw env n3 i (n3.silent i)
  have hok4 : (setSilentAwake env n3 i (n3.silent i)).2 = E.ok := by
    unfold setSilentAwake
    rw [if_pos hi]
    simp only
    rw [hs3]
    rcases hst with h | h <;> rw [h]
    · simp
    · simp
  subst hr
  refine ⟨hok4, ?_⟩
  have : freeCnt env (setSilentAwake env n3 i (n3.silent i)).1 = freeCnt env n3 :=
    freeCnt_congr env _ _ (by rw [hs4.hw])
  have e : ∀ k, freeCnt env { (setSilentAwake env n3 i (n3.silent i)).1 with nrMod := k } =
    freeCnt env (setSilentAwake env n3 i (n3.silent i)).1 := fun _ => rfl
  rw [e, this]; omega

end LiCan.Node
