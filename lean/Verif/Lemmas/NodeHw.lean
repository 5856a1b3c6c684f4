import Verif.Lemmas.NodeOps
import Verif.Model.NodeRun
/-! # Message objects: allocation invariant -/
namespace LiCan.Node

theorem bit_get (o i : Nat) (ho : o < 32) : (bit o).getLsbD i = decide (i = o) := by
  have := one_shift_bit o 0 i (by omega)
  simpa [bit] using this

/-- objects reserved by `li_can_slv_init` -/
def Fixed (env : Env) (o : Nat) : Prop := o = 0 ∨ o = 2 ∨ (o = 3 ∧ env.sysObj2 = true) ∨ o = 6 ∨ o = 10

/-- asynchronous control objects in use (0 = none was available) -/
def ctrls (n : Node) : List Nat := ((List.range n.nrMod).map n.ctrlObj).filter fun o => o ≠ 0

/-- message objects given to modules -/
def assigned (n : Node) : List Nat := n.slots.map (·.1) ++ n.ctrls

/-- message object programmed for synchronous receive object `j` of row `r` -/
def rxDef (n : Node) (r j : Nat) : ObjDef :=
  ⟨syncRxId (n.rows r).nr j, 0x7FF#16, (n.rows r).rxDlc j, .rx true⟩

structure HwInv (env : Env) (bd : Nat → Nat) (c : Nat) (n : Node) : Prop where
  fixed : ∀ o, Fixed env o → n.hw.used o = true
  nodup : n.assigned.Nodup
  asg   : ∀ o ∈ n.assigned, o < env.nObj ∧ ¬ Fixed env o ∧ n.hw.used o = true
  slot  : ∀ s ∈ n.slots, ∃ j < bd s.2, (n.rows s.2).rxMsgObj j = s.1 ∧
            n.hw.defs s.1 = some (n.rxDef s.2 j)
  isr   : ∀ o < 32, n.hw.isrRx.getLsbD o = true ↔ o ∈ n.slots.map (·.1)
  cnt   : n.slots.length ≤ c
  ctl0  : ∀ k, n.nrMod ≤ k → n.ctrlObj k = 0
  ctlm  : ∀ o < 32, n.hw.ctrlMask.getLsbD o = true → o ∈ n.ctrls

theorem HwInv.congr {env : Env} {bd bd' : Nat → Nat} {c c' : Nat} {n n' : Node} (h : HwInv env bd c n)
    (hb : ∀ i, bd i ≤ bd' i) (hc : c ≤ c') (h1 : n'.hw = n.hw) (h2 : n'.slots = n.slots)
    (h3 : n'.ctrlObj = n.ctrlObj)
    (h4 : n'.nrMod = n.nrMod)
    (h5 : ∀ i, 0 < bd i → (n'.rows i).rxMsgObj = (n.rows i).rxMsgObj ∧ (n'.rows i).nr = (n.rows i).nr ∧
      (n'.rows i).rxDlc = (n.rows i).rxDlc) : HwInv env bd' c' n' := by
  have hct : n'.ctrls = n.ctrls := by simp only [ctrls, h3, h4]
  have ha : n'.assigned = n.assigned := by simp only [assigned, h2, hct]
  refine ⟨by rw [h1]; exact h.fixed, by rw [ha]; exact h.nodup, by rw [ha, h1]; exact h.asg, ?_,
    by rw [h1, h2]; exact h.isr, by rw [h2]; exact Nat.le_trans h.cnt hc, by rw [h3, h4]; exact h.ctl0,
    by rw [h1, hct]; exact h.ctlm⟩
  intro s hs
  rw [h2] at hs
  obtain ⟨j, hj, e1, e2⟩ := h.slot s hs
  have h5' := h5 s.2 (by omega)
  refine ⟨j, Nat.lt_of_lt_of_le hj (hb _), by rw [h5'.1]; exact e1, ?_⟩
  rw [h1, e2]; simp only [rxDef, h5'.2.1, h5'.2.2]

theorem nextFree_some {env : Env} {n : Node} {o : Nat} (h : n.nextFree env = some o) :
    o < env.nObj ∧ n.hw.used o = false := by
  simp only [nextFree, List.find?_range_eq_some] at h
  obtain ⟨h1, h2, _⟩ := h
  exact ⟨by simpa using h2, by simpa using h1⟩

theorem forErr_all {f : Nat → Node → Node × Err} (P : Nat → Node → Prop) (W : Node → Prop) (k : Nat)
    (hs : ∀ j < k, ∀ n, P j n → ((f j n).2 = E.ok → P (j + 1) (f j n).1) ∧ W (f j n).1)
    (hw : ∀ n, P k n → W n) (n : Node) (h0 : P 0 n) :
    W (forErr f (List.range k) n).1 ∧
    ((forErr f (List.range k) n).2 = E.ok → P k (forErr f (List.range k) n).1) := by
  have key : ∀ j ≤ k, ((forErr f (List.range j) n).2 = E.ok → P j (forErr f (List.range j) n).1) ∧
      ((forErr f (List.range j) n).2 ≠ E.ok → W (forErr f (List.range j) n).1) := by
    intro j hj
    induction j with
    | zero => exact ⟨fun _ => h0, fun h => absurd rfl h⟩
    | succ j ih =>
      have ih := ih (by omega)
      rw [forErr_range_succ, thenOk]
      split
      · next e =>
        have := hs j (by omega) _ (ih.1 e)
        exact ⟨this.1, fun _ => this.2⟩
      · next e => exact ⟨fun e' => absurd e' e, fun _ => ih.2 e⟩
  have h := key k (Nat.le_refl _)
  refine ⟨?_, h.1⟩
  by_cases e : (forErr f (List.range k) n).2 = E.ok
  · exact hw _ (h.1 e)
  · exact h.2 e

/-- bound of the receive objects entered so far -/
def bdAt (bd : Nat → Nat) (i k : Nat) : Nat → Nat := upd bd i k

/-- the number of unused message objects -/
def freeCnt (env : Env) (n : Node) : Nat :=
  ((List.range env.nObj).filter fun o => !n.hw.used o).length

theorem nextFree_of_pos {env : Env} {n : Node} (h : 0 < freeCnt env n) : ∃ o, n.nextFree env = some o := by
  unfold freeCnt at h
  obtain ⟨o, ho⟩ := List.exists_mem_of_length_pos h
  simp only [List.mem_filter] at ho
  cases hx : n.nextFree env with
  | some o => exact ⟨o, rfl⟩
  | none =>
    simp only [nextFree, List.find?_eq_none] at hx
    exact absurd ho.2 (by simpa using hx o ho.1)

theorem filter_upd_length (f : Nat → Bool) (o k : Nat) (ho : o < k) (hf : f o = false) :
    ((List.range k).filter fun i => !upd f o true i).length + 1 =
    ((List.range k).filter fun i => !f i).length := by
  induction k with
  | zero => omega
  | succ k ih =>
    rw [List.range_succ, List.filter_append, List.filter_append, List.length_append, List.length_append]
    by_cases e : o = k
    · subst e
      have : (List.range o).filter (fun i => !upd f o true i) = (List.range o).filter fun i => !f i := by
        apply List.filter_congr
        intro i hi
        simp at hi
        rw [upd_other _ _ (by omega)]
      rw [this]
      simp [hf]
    · have := ih (by omega)
      have e2 : upd f o true k = f k := upd_other _ _ (fun h => e h.symm)
      simp only [List.filter_cons, List.filter_nil, e2]
      omega

/-- the effect of `can_main_define_msg_obj` -/
theorem define_cases (env : Env) (n : Node) (o : Nat) (d : ObjDef) (ho : o < env.nObj) :
    (env.hwOk n.hw.cfgN = true ∧ define env n o d =
      ({ n with hw := { used := upd n.hw.used o true, cfgN := n.hw.cfgN + 1
                        defs := upd n.hw.defs o (some d)
                        isrRx := if d.svc = .rx true then n.hw.isrRx ||| bit o else n.hw.isrRx
                        ctrlMask := if d.svc = .asyncCtrlRx then n.hw.ctrlMask ||| bit o
                                    else n.hw.ctrlMask } }, E.ok)) ∨
    (env.hwOk n.hw.cfgN = false ∧ define env n o d =
      ({ n with hw := { n.hw with used := upd n.hw.used o true, cfgN := n.hw.cfgN + 1 } },
        E.initFailed)) := by
  unfold define
  rw [if_neg (by omega)]
  cases h : env.hwOk n.hw.cfgN <;> simp

theorem define_freeCnt (env : Env) (n : Node) (o : Nat) (d : ObjDef) (ho : o < env.nObj)
    (hu : n.hw.used o = false) : freeCnt env (define env n o d).1 + 1 = freeCnt env n := by
  rcases define_cases env n o d ho with ⟨_, h⟩ | ⟨_, h⟩ <;> rw [h] <;>
    exact filter_upd_length _ _ _ ho hu

theorem define_freeCnt_used (env : Env) (n : Node) (o : Nat) (d : ObjDef) (ho : o < env.nObj)
    (hu : n.hw.used o = true) : freeCnt env (define env n o d).1 = freeCnt env n := by
  have : upd n.hw.used o true = n.hw.used := by rw [← hu]; exact upd_self _ _
  rcases define_cases env n o d ho with ⟨_, h⟩ | ⟨_, h⟩ <;> rw [h] <;>
    simp only [freeCnt, this]

/-- programming the shared filter objects 2, 3, 6 -/
theorem HwInv.defineFilter {env : Env} {bd : Nat → Nat} {c : Nat} {n : Node} (h : HwInv env bd c n)
    (o : Nat) (d : ObjDef) (hn : 10 < env.nObj) (ho : Fixed env o) (hd : d.svc ≠ .rx true)
    (hd2 : d.svc ≠ .asyncCtrlRx) : HwInv env bd c (define env n o d).1 := by
  have ho' : o < env.nObj := by unfold Fixed at ho; omega
  have hu : upd n.hw.used o true = n.hw.used := by rw [← h.fixed o ho]; exact upd_self _ _
  rcases define_cases env n o d ho' with ⟨_, e⟩ | ⟨_, e⟩ <;> rw [e]
  · simp only [hu, hd, hd2, if_false]
    refine ⟨h.fixed, h.nodup, h.asg, ?_, h.isr, h.cnt, h.ctl0, h.ctlm⟩
    intro s hs
    obtain ⟨j, hj, e1, e2⟩ := h.slot s hs
    refine ⟨j, hj, e1, ?_⟩
    have : s.1 ≠ o := by
      rintro rfl
      exact (h.asg s.1 (by simp only [assigned, List.mem_append, List.mem_map]; exact .inl ⟨s, hs, rfl⟩)).2.1 ho
    simp only
    rw [upd_other _ _ this, e2]; rfl
  · simp only [hu]
    exact ⟨h.fixed, h.nodup, h.asg, h.slot, h.isr, h.cnt, h.ctl0, h.ctlm⟩

/-- one receive object of a new module in row `i` -/
theorem HwInv.setRx1 {env : Env} {bd : Nat → Nat} {c i k nr : Nat} {n : Node}
    (h : HwInv env (bdAt bd i k) (c + k) n) (hnr : (n.rows i).nr = nr)
    (hn : env.nObj ≤ 32) (hc : c + k < 4 * env.maxMod) :
    let r := Node.setRx1 env i nr k n
    (r.2 = E.ok → HwInv env (bdAt bd i (k + 1)) (c + (k + 1)) r.1 ∧
       ∃ o, (r.1.rows i).rxMsgObj k = o ∧ (o, i) ∈ r.1.slots ∧ r.1.hw.defs o = some (r.1.rxDef i k)) ∧
    HwInv env (bdAt bd i (k + 1)) (c + (k + 1)) r.1 ∧
    (∀ s ∈ n.slots, s ∈ r.1.slots) ∧
    (∀ j, j ≠ k → (r.1.rows i).rxMsgObj j = (n.rows i).rxMsgObj j) ∧
    (∀ o, n.hw.used o = true → r.1.hw.used o = true ∧ r.1.hw.defs o = n.hw.defs o) := by
  have hbd : ∀ x, bdAt bd i k x ≤ bdAt bd i (k + 1) x := by
    intro x; simp only [bdAt, upd]; split <;> omega
  have hbi : bdAt bd i (k + 1) i = k + 1 := by simp [bdAt]
  have hbk : bdAt bd i k i = k := by simp [bdAt]
  intro r
  have hr : r = Node.setRx1 env i nr k n := rfl
  clear_value r
  simp only [Node.setRx1] at hr
  have hnf : nextFree env (n.setRow i fun r => { r with rxDlcSync := upd r.rxDlcSync k (r.rxDlc k) }) =
      nextFree env n := rfl
  rw [hnf] at hr
  cases hf : n.nextFree env with
  | none =>
    rw [hf] at hr
    simp only at hr
    subst hr
    refine ⟨fun e => absurd (show E.noMsgObjFree = E.ok from e) (by decide), ?_, fun s hs => hs, ?_, fun o ho => ⟨ho, rfl⟩⟩
    · refine h.congr hbd (by omega) rfl rfl rfl rfl ?_
      intro x _
      by_cases e : x = i
      · subst e; simp [setRow]
      · simp only [setRow]; rw [upd_other _ _ e]; exact ⟨rfl, rfl, rfl⟩
    · intro j _; simp [setRow]
  | some o =>
    rw [hf] at hr
    simp only at hr
    obtain ⟨ho, hu⟩ := nextFree_some hf
    have hno : o ∉ n.assigned := fun hm => by
      have := (h.asg o hm).2.2; rw [hu] at this; cases this
    have hnfx : ¬ Fixed env o := fun hm => by
      have := h.fixed o hm; rw [hu] at this; cases this
    -- the state before programming
    generalize hn1 : ((n.setRow i fun r => { r with rxDlcSync := upd r.rxDlcSync k (r.rxDlc k) }).setRow i
        fun r => { r with rxMsgObj := upd r.rxMsgObj k o }) = n1 at hr
    have a1 : n1.hw = n.hw := by rw [← hn1]; rfl
    have a2 : n1.slots = n.slots := by rw [← hn1]; rfl
    have a3 : n1.ctrlObj = n.ctrlObj := by rw [← hn1]; rfl
    have a4 : n1.nrMod = n.nrMod := by rw [← hn1]; rfl
    have a5 : ∀ x, x ≠ i → n1.rows x = n.rows x := by
      intro x hx; rw [← hn1]; simp only [setRow]; rw [upd_other _ _ hx, upd_other _ _ hx]
    have a6 : (n1.rows i).rxMsgObj = upd (n.rows i).rxMsgObj k o := by rw [← hn1]; simp [setRow]
    have a7 : (n1.rows i).nr = (n.rows i).nr := by rw [← hn1]; simp [setRow]
    have a8 : (n1.rows i).rxDlc = (n.rows i).rxDlc := by rw [← hn1]; simp [setRow]
    have hrow : ∀ x, (n1.rows x).nr = (n.rows x).nr ∧ (n1.rows x).rxDlc = (n.rows x).rxDlc := by
      intro x
      by_cases e : x = i
      · subst e; exact ⟨a7, a8⟩
      · rw [a5 x e]; exact ⟨rfl, rfl⟩
    have hdef : ∀ x j, n1.rxDef x j = n.rxDef x j := by
      intro x j; simp only [rxDef, (hrow x).1, (hrow x).2]
    have hmsg : ∀ s ∈ n.slots, ∀ j < bdAt bd i k s.2,
        (n1.rows s.2).rxMsgObj j = (n.rows s.2).rxMsgObj j := by
      intro s _ j hj
      by_cases e : s.2 = i
      · rw [e] at hj ⊢
        rw [a6, upd_other _ _ (by rw [hbk] at hj; omega)]
      · rw [a5 _ e]
    have hct : n1.ctrls = n.ctrls := by simp only [ctrls, a3, a4]
    have hold : ∀ (x : Nat), (x = o → False) → upd n.hw.defs o (some (n.rxDef i k)) x = n.hw.defs x := by
      intro x hx; exact upd_other _ _ hx
    rcases define_cases env n1 o ⟨syncRxId nr k, 0x7FF#16, (n1.rows i).rxDlc k, .rx true⟩ ho
      with ⟨_, e⟩ | ⟨_, e⟩
    · rw [e, thenOk_ok] at hr
      simp only [addSlot] at hr
      rw [if_pos (by rw [a2]; have := h.cnt; omega)] at hr
      have hnew : HwInv env (bdAt bd i (k + 1)) (c + (k + 1)) r.1 := by
        rw [hr]
        have hasg : ∀ (hw : Hw), ({ n1 with slots := n1.slots ++ [(o, i)], hw := hw } : Node).assigned =
            n.slots.map (·.1) ++ [o] ++ n.ctrls := by
          intro hw
          simp only [assigned, ctrls, a2, a3, a4, List.map_append, List.map_cons, List.map_nil]
        refine ⟨?_, ?_, ?_, ?_, ?_, ?_, ?_, ?_⟩
        · intro x hx
          simp only [a1, upd]
          split
          · rfl
          · exact h.fixed x hx
        · rw [hasg]
          have hnd := h.nodup
          simp only [assigned] at hnd hno
          rw [List.append_assoc]
          rw [List.nodup_append] at hnd ⊢
          simp only [List.mem_append, not_or] at hno
          refine ⟨hnd.1, ?_, ?_⟩
          · simp only [List.cons_append, List.nil_append, List.nodup_cons]
            exact ⟨hno.2, hnd.2.1⟩
          · intro a ha b hb
            simp only [List.cons_append, List.nil_append, List.mem_cons] at hb
            rcases hb with rfl | hb
            · rintro rfl; exact hno.1 ha
            · exact hnd.2.2 a ha b hb
        · intro x hx
          rw [hasg] at hx
          simp only [List.mem_append, List.mem_cons, List.not_mem_nil, or_false] at hx
          simp only [a1]
          have : x = o ∨ x ∈ n.assigned := by
            simp only [assigned, List.mem_append]
            rcases hx with (hx | hx) | hx
            · exact .inr (.inl hx)
            · exact .inl hx
            · exact .inr (.inr hx)
          rcases this with rfl | hx
          · exact ⟨ho, hnfx, by simp⟩
          · obtain ⟨b1, b2, b3⟩ := h.asg x hx
            exact ⟨b1, b2, by simp only [upd]; split; rfl; exact b3⟩
        · intro s hs
          simp only [List.mem_append, List.mem_cons, List.not_mem_nil, or_false, a2] at hs
          rcases hs with hs | hs
          · obtain ⟨j, hj, e1, e2⟩ := h.slot s hs
            refine ⟨j, Nat.lt_of_lt_of_le hj (hbd _), ?_, ?_⟩
            · simp only [hmsg s hs j hj, e1]
            · have hne : s.1 ≠ o := by
                rintro rfl
                exact hno (by simp only [assigned, List.mem_append, List.mem_map]; exact .inl ⟨s, hs, rfl⟩)
              simp only [a1]
              rw [upd_other _ _ hne, e2]
              exact congrArg some (hdef s.2 j).symm
          · subst hs
            refine ⟨k, by simp only [hbi]; omega, ?_, ?_⟩
            · simp [a6]
            · simp only [a1, upd_same]
              refine congrArg some ?_
              simp only [rxDef, a7, hnr]
        · intro x hx
          simp only [if_true, a1, BitVec.getLsbD_or, bit_get o x (by omega), Bool.or_eq_true,
            decide_eq_true_eq, h.isr x hx, List.map_append, List.mem_append, List.map_cons,
            List.map_nil, List.mem_cons, List.not_mem_nil, or_false, a2]
        · simp only [List.length_append, List.length_cons, List.length_nil, a2]
          have := h.cnt; omega
        · simp only [a3, a4]; exact h.ctl0
        · intro x hx
          simp only [reduceCtorEq, if_false, a1]
          intro hb
          have := h.ctlm x hx hb
          simpa only [ctrls, a3, a4] using this
      refine ⟨fun _ => ⟨hnew, o, ?_, ?_, ?_⟩, hnew, ?_, ?_, ?_⟩
      · rw [hr]; simp [a6]
      · rw [hr]; simp
      · rw [hr]; simp [rxDef, a7, hnr]
      · intro s hs; rw [hr]; simp [a2, hs]
      · intro j hj; rw [hr]; simp only [a6]; exact upd_other _ _ hj
      · intro x hx; rw [hr]; simp only [a1]
        have : x ≠ o := by rintro rfl; rw [hu] at hx; cases hx
        rw [upd_other _ _ this, upd_other _ _ this]; exact ⟨hx, rfl⟩
    · rw [e] at hr
      have hte : ∀ (x : Node) f, thenOk (x, E.initFailed) f = (x, E.initFailed) := by
        intro x f; simp [thenOk]
      rw [hte] at hr
      subst hr
      refine ⟨fun e => absurd (show E.initFailed = E.ok from e) (by decide), ?_, ?_, ?_, ?_⟩
      · refine ⟨?_, ?_, ?_, ?_, ?_, ?_, ?_, ?_⟩
        · intro x hx
          simp only [a1, upd]
          split
          · rfl
          · exact h.fixed x hx
        · simpa only [assigned, ctrls, a2, a3, a4] using h.nodup
        · intro x hx
          have hx' : x ∈ n.assigned := by simpa only [assigned, ctrls, a2, a3, a4] using hx
          obtain ⟨b1, b2, b3⟩ := h.asg x hx'
          exact ⟨b1, b2, by simp only [a1, upd]; split; rfl; exact b3⟩
        · intro s hs
          simp only [a2] at hs
          obtain ⟨j, hj, e1, e2⟩ := h.slot s hs
          refine ⟨j, Nat.lt_of_lt_of_le hj (hbd _), ?_, ?_⟩
          · simp only [hmsg s hs j hj, e1]
          · simp only [a1, e2]; exact congrArg some (hdef s.2 j).symm
        · simpa only [a1, a2] using h.isr
        · simp only [a2]; have := h.cnt; omega
        · simpa only [a3, a4] using h.ctl0
        · simpa only [a1, ctrls, a3, a4] using h.ctlm
      · intro s hs; simpa [a2] using hs
      · intro j hj; simp only [a6]; exact upd_other _ _ hj
      · intro x hx; simp only [a1]
        have : x ≠ o := by rintro rfl; rw [hu] at hx; cases hx
        rw [upd_other _ _ this]; exact ⟨hx, trivial⟩

/-- `n'` keeps all message objects of `n` as they are -/
def Keeps (n n' : Node) : Prop :=
  ∀ o, n.hw.used o = true → n'.hw.used o = true ∧ n'.hw.defs o = n.hw.defs o

theorem Keeps.refl (n : Node) : Keeps n n := fun _ h => ⟨h, rfl⟩
theorem Keeps.trans {a b c : Node} (h : Keeps a b) (h' : Keeps b c) : Keeps a c := fun o ho =>
  ⟨(h' o (h o ho).1).1, by rw [(h' o (h o ho).1).2, (h o ho).2]⟩

/-- all receive objects of a new module in row `i` -/
theorem HwInv.setRx {env : Env} {bd : Nat → Nat} {c i nr : Nat} {n : Node}
    (h : HwInv env (bdAt bd i 0) c n) (hnr : (n.rows i).nr = nr)
    (hn : env.nObj ≤ 32) (hc : c + (n.rows i).rxObj ≤ 4 * env.maxMod) :
    let r := Node.setRx env n i nr
    HwInv env (bdAt bd i (n.rows i).rxObj) (c + (n.rows i).rxObj) r.1 ∧ Keeps n r.1 ∧
    (r.2 = E.ok → ∀ j < (n.rows i).rxObj, ((r.1.rows i).rxMsgObj j, i) ∈ r.1.slots ∧
      r.1.hw.defs ((r.1.rows i).rxMsgObj j) = some (r.1.rxDef i j)) := by
  intro r
  generalize hm : (n.setRow i fun r => { r with rxObjSync := r.rxObj }) = m
  have hr : r = forErr (Node.setRx1 env i nr) (List.range (m.rows i).rxObj) m := by rw [← hm]; rfl
  have a1 : m.hw = n.hw := by rw [← hm]; rfl
  have hrow : ∀ x, (m.rows x).rxMsgObj = (n.rows x).rxMsgObj ∧ (m.rows x).nr = (n.rows x).nr ∧
      (m.rows x).rxDlc = (n.rows x).rxDlc ∧ (m.rows x).rxObj = (n.rows x).rxObj := by
    intro x; rw [← hm]; simp only [setRow]
    by_cases e : x = i
    · subst e; simp
    · rw [upd_other _ _ e]; exact ⟨rfl, rfl, rfl, rfl⟩
  have hm0 : HwInv env (bdAt bd i 0) (c + 0) m :=
    h.congr (fun _ => Nat.le_refl _) (Nat.le_refl _) (by rw [← hm]; rfl) (by rw [← hm]; rfl)
      (by rw [← hm]; rfl) (by rw [← hm]; rfl) (fun x _ => ⟨(hrow x).1, (hrow x).2.1, (hrow x).2.2.1⟩)
  have hK : (m.rows i).rxObj = (n.rows i).rxObj := (hrow i).2.2.2
  rw [hK] at hr
  clear_value r
  have := forErr_all (f := Node.setRx1 env i nr)
    (fun k x => HwInv env (bdAt bd i k) (c + k) x ∧ (x.rows i).nr = nr ∧ Keeps n x ∧
      ∀ j < k, ((x.rows i).rxMsgObj j, i) ∈ x.slots ∧
        x.hw.defs ((x.rows i).rxMsgObj j) = some (x.rxDef i j))
    (fun x => HwInv env (bdAt bd i (n.rows i).rxObj) (c + (n.rows i).rxObj) x ∧ Keeps n x)
    (n.rows i).rxObj ?_ ?_ m ⟨hm0, by rw [(hrow i).2.1, hnr], by intro o ho; rw [a1]; exact ⟨ho, rfl⟩,
      by intro j hj; omega⟩
  · rw [← hr] at this
    exact ⟨this.1.1, this.1.2, fun e => (this.2 e).2.2.2⟩
  · rintro k hk x ⟨h1, h2, h3, h4⟩
    have s := h1.setRx1 h2 hn (by omega)
    simp only at s
    obtain ⟨s1, s2, s3, s4, s5⟩ := s
    have hkeep : Keeps n (Node.setRx1 env i nr k x).1 := h3.trans s5
    refine ⟨fun e => ⟨s2, ?_, hkeep, ?_⟩, ?_, hkeep⟩
    · obtain ⟨hw, u, c', s', d, m', e'⟩ := setRx1_rxOnly env i nr k x
      rw [e']; simpa using h2
    · intro j hj
      by_cases ej : j = k
      · subst ej
        obtain ⟨_, o, ho, hs⟩ := s1 e
        rw [ho]; exact hs
      · rw [s4 j ej]
        obtain ⟨g1, g2⟩ := h4 j (by omega)
        refine ⟨s3 _ g1, ?_⟩
        have hu := (h1.asg _ (by
          simp only [assigned, List.mem_append, List.mem_map]; exact .inl ⟨_, g1, rfl⟩)).2.2
        rw [(s5 _ hu).2, g2]
        obtain ⟨hw, u, c', s', d, m', e'⟩ := setRx1_rxOnly env i nr k x
        rw [e']; simp [rxDef]
    · refine s2.congr ?_ (by omega) rfl rfl rfl rfl (fun _ _ => ⟨rfl, rfl, rfl⟩)
      intro x; simp only [bdAt, upd]; split <;> omega
  · rintro x ⟨h1, _, h3, _⟩
    exact ⟨h1, h3⟩

/-- one more registered control index -/
def bump (n : Node) (k : Nat) : Node := { n with nrMod := k }

theorem define_bump (env : Env) (n : Node) (k o : Nat) (d : ObjDef) :
    define env (n.bump k) o d = ((define env n o d).1.bump k, (define env n o d).2) := by
  unfold define bump
  split
  · rfl
  · split <;> rfl

theorem ctrls_succ (n : Node) (o : Nat) (ho : o ≠ 0) :
    ({ n with ctrlObj := upd n.ctrlObj n.nrMod o, nrMod := n.nrMod + 1 } : Node).ctrls = n.ctrls ++ [o] := by
  simp only [ctrls, List.range_succ, List.map_append, List.filter_append, List.map_cons, List.map_nil,
    upd_same]
  congr 1
  · congr 1
    apply List.map_congr_left
    intro x hx
    simp at hx
    rw [upd_other _ _ (by omega)]
  · simp [ho]

theorem ctrls_succ0 (n : Node) (h0 : n.ctrlObj n.nrMod = 0) : (n.bump (n.nrMod + 1)).ctrls = n.ctrls := by
  simp [ctrls, bump, List.range_succ, h0]

/-- the asynchronous control object of a new module -/
theorem HwInv.defineCtrl {env : Env} {bd : Nat → Nat} {c nr : Nat} {n : Node} (h : HwInv env bd c n)
    (hn : env.nObj ≤ 32) :
    let r := Node.defineCtrl env n n.nrMod nr
    HwInv env bd c (r.1.bump (n.nrMod + 1)) ∧ Keeps n r.1 ∧
    (r.2 = E.ok → ∃ o, o ∈ (r.1.bump (n.nrMod + 1)).ctrls ∧ n.hw.used o = false ∧
      r.1.hw.defs o = some ⟨asyncCtrlRxId nr, 0x7FF#16, 8, .asyncCtrlRx⟩ ∧
      r.1.hw.used o = true ∧ r.1.hw.ctrlMask.getLsbD o = true) := by
  have h0 : n.ctrlObj n.nrMod = 0 := h.ctl0 _ (Nat.le_refl _)
  have hbump : HwInv env bd c (n.bump (n.nrMod + 1)) := by
    have hc := ctrls_succ0 n h0
    have ha : (n.bump (n.nrMod + 1)).assigned = n.assigned := by
      simp only [assigned, hc]; rfl
    exact ⟨h.fixed, by rw [ha]; exact h.nodup, by rw [ha]; exact h.asg, h.slot, h.isr, h.cnt,
      fun k hk => h.ctl0 k (by simp only [bump] at hk; omega), by rw [hc]; exact h.ctlm⟩
  intro r
  have hr : r = Node.defineCtrl env n n.nrMod nr := rfl
  clear_value r
  unfold Node.defineCtrl at hr
  split at hr
  · subst hr
    exact ⟨hbump, .refl n, fun e => absurd (show E.wrongTablePos = E.ok from e) (by decide)⟩
  · cases hf : n.nextFree env with
    | none =>
      rw [hf] at hr
      simp only at hr
      subst hr
      exact ⟨hbump, .refl n, fun e => absurd (show E.noMsgObjFree = E.ok from e) (by decide)⟩
    | some o =>
      rw [hf] at hr
      simp only at hr
      obtain ⟨ho, hu⟩ := nextFree_some hf
      have hno : o ∉ n.assigned := fun hm => by
        have := (h.asg o hm).2.2; rw [hu] at this; cases this
      have hnfx : ¬ Fixed env o := fun hm => by
        have := h.fixed o hm; rw [hu] at this; cases this
      have ho0 : o ≠ 0 := by rintro rfl; exact hnfx (.inl rfl)
      have hcs : ∀ hw u, ({ n with ctrlObj := upd n.ctrlObj n.nrMod o, nrMod := n.nrMod + 1, hw := hw, ub := u } : Node).ctrls
          = n.ctrls ++ [o] := by
        intro hw u; exact ctrls_succ n o ho0
      have hasg : ∀ hw u, ({ n with ctrlObj := upd n.ctrlObj n.nrMod o, nrMod := n.nrMod + 1, hw := hw, ub := u } : Node).assigned
          = n.assigned ++ [o] := by
        intro hw u
        have := hcs hw u
        simp only [assigned] at this ⊢
        rw [this, List.append_assoc]
      have hkeep : ∀ x, n.hw.used x = true → x ≠ o := by
        rintro x hx rfl; rw [hu] at hx; cases hx
      have base : ∀ hw : Hw, hw.used = upd n.hw.used o true → hw.isrRx = n.hw.isrRx →
          (∀ x, x ≠ o → hw.defs x = n.hw.defs x) →
          (∀ x < 32, hw.ctrlMask.getLsbD x = true → n.hw.ctrlMask.getLsbD x = true ∨ x = o) →
          HwInv env bd c { n with ctrlObj := upd n.ctrlObj n.nrMod o, nrMod := n.nrMod + 1, hw := hw } := by
        intro hw e1 e2 e3 e4
        refine ⟨?_, ?_, ?_, ?_, ?_, h.cnt, ?_, ?_⟩
        · intro x hx; simp only [e1, upd]; split
          · rfl
          · exact h.fixed x hx
        · rw [hasg]
          rw [List.nodup_append]
          refine ⟨h.nodup, by simp, ?_⟩
          intro a ha b hb
          simp at hb; subst hb
          rintro rfl; exact hno ha
        · intro x hx
          rw [hasg] at hx
          simp only [List.mem_append, List.mem_cons, List.not_mem_nil, or_false] at hx
          rcases hx with hx | rfl
          · obtain ⟨b1, b2, b3⟩ := h.asg x hx
            exact ⟨b1, b2, by simp only [e1, upd]; split; rfl; exact b3⟩
          · exact ⟨ho, hnfx, by simp [e1]⟩
        · intro s hs
          obtain ⟨j, hj, d1, d2⟩ := h.slot s hs
          refine ⟨j, hj, d1, ?_⟩
          have hne : s.1 ≠ o := by
            rintro rfl
            exact hno (by simp only [assigned, List.mem_append, List.mem_map]; exact .inl ⟨s, hs, rfl⟩)
          simp only [e3 s.1 hne, d2]; rfl
        · intro x hx; simp only [e2]; exact h.isr x hx
        · intro k hk
          simp only at hk
          simp only
          rw [upd_other _ _ (by omega)]; exact h.ctl0 k (by omega)
        · intro x hx hb
          rw [hcs]
          simp only [List.mem_append, List.mem_cons, List.not_mem_nil, or_false]
          rcases e4 x hx hb with hb | hb
          · exact .inl (h.ctlm x hx hb)
          · exact .inr hb
      rcases define_cases env { n with ctrlObj := upd n.ctrlObj n.nrMod o } o
        ⟨asyncCtrlRxId nr, 0x7FF#16, 8, .asyncCtrlRx⟩ ho with ⟨_, e⟩ | ⟨_, e⟩
      · rw [e] at hr
        subst hr
        simp only [reduceCtorEq, if_false, if_true]
        refine ⟨base _ rfl rfl (fun x hx => upd_other _ _ hx) ?_, ?_, ?_⟩
        · intro x hx hb
          simpa only [BitVec.getLsbD_or, bit_get o x (by omega), Bool.or_eq_true,
            decide_eq_true_eq] using hb
        · intro x hx; simp only [upd_other _ _ (hkeep x hx)]; exact ⟨hx, trivial⟩
        · intro _
          refine ⟨o, ?_, hu, by simp, by simp, ?_⟩
          · simp only [bump]; rw [hcs]; simp
          · simp only [BitVec.getLsbD_or, bit_get o o (by omega)]; simp
      · rw [e] at hr
        subst hr
        refine ⟨base _ rfl rfl (fun _ _ => rfl) (fun _ _ hb => .inl hb), ?_, ?_⟩
        · intro x hx; simp only [upd_other _ _ (hkeep x hx)]; exact ⟨hx, trivial⟩
        · intro e; exact absurd (show E.initFailed = E.ok from e) (by decide)

/-- the shared filters of all modules: system messages and asynchronous data -/
def FilterObj (env : Env) (o : Nat) : Prop := o = 2 ∨ (o = 3 ∧ env.sysObj2 = true) ∨ o = 6

theorem FilterObj.fixed {env : Env} {o : Nat} (h : FilterObj env o) : Fixed env o := by
  rcases h with h | h | h
  · exact .inr (.inl h)
  · exact .inr (.inr (.inl h))
  · exact .inr (.inr (.inr (.inl h)))

/-- `n'` keeps all message objects of `n` but the shared filters -/
def KeepsF (env : Env) (n n' : Node) : Prop :=
  ∀ o, n.hw.used o = true → n'.hw.used o = true ∧
    (¬ FilterObj env o → n'.hw.defs o = n.hw.defs o)

theorem KeepsF.trans {env : Env} {a b c : Node} (h : KeepsF env a b) (h' : KeepsF env b c) :
    KeepsF env a c := fun o ho =>
  ⟨(h' o (h o ho).1).1, fun hx => by rw [(h' o (h o ho).1).2 hx, (h o ho).2 hx]⟩
theorem Keeps.f {env : Env} {n n' : Node} (h : Keeps n n') : KeepsF env n n' := fun o ho => ⟨(h o ho).1, fun _ => (h o ho).2⟩
theorem KeepsF.refl (env : Env) (n : Node) : KeepsF env n n := (Keeps.refl n).f

theorem define_keepsF (env : Env) (n : Node) (o : Nat) (d : ObjDef) (ho : FilterObj env o)
    (hn : o < env.nObj) : KeepsF env n (define env n o d).1 := by
  intro x hx
  rcases define_cases env n o d hn with ⟨_, e⟩ | ⟨_, e⟩ <;> rw [e] <;> simp only [upd]
  · refine ⟨by split; rfl; exact hx, fun h => ?_⟩
    rw [if_neg (by rintro rfl; exact h ho)]
  · exact ⟨by split; rfl; exact hx, fun _ => trivial⟩

/-- facts about masks kept by the filters -/
theorem define_masks (env : Env) (n : Node) (o : Nat) (d : ObjDef) (hn : o < env.nObj)
    (h1 : d.svc ≠ .rx true) (h2 : d.svc ≠ .asyncCtrlRx) :
    (define env n o d).1.hw.ctrlMask = n.hw.ctrlMask ∧ (define env n o d).1.hw.isrRx = n.hw.isrRx := by
  rcases define_cases env n o d hn with ⟨_, e⟩ | ⟨_, e⟩ <;> rw [e] <;> simp [h1, h2]

/-- the filters -/
def filters (env : Env) (nrs : List Nat) (r : Node × Err) : Node × Err :=
  let r := thenOk r fun n => define env n 6 ⟨0x602, acceptMask nrs, 8, .asyncRx⟩
  let r := thenOk r fun n => define env n 2 ⟨0x002, acceptMask nrs, 8, .rx false⟩
  thenOk r fun n =>
    if env.sysObj2 then define env n 3 ⟨0x002, acceptMask nrs, 8, .rx false⟩ else (n, E.ok)

theorem filters_ind (env : Env) (nrs : List Nat) (P : Node → Prop) (hn : 10 < env.nObj)
    (hP : ∀ n o d, P n → (o = 2 ∨ (o = 3 ∧ env.sysObj2 = true) ∨ o = 6) → d.svc ≠ .rx true →
      d.svc ≠ .asyncCtrlRx → P (define env n o d).1) (r : Node × Err) (h : P r.1) :
    P (filters env nrs r).1 := by
  have step : ∀ (r : Node × Err) (f : Node → Node × Err), P r.1 → (∀ n, P n → P (f n).1) →
      P (thenOk r f).1 := by
    intro r f h hf; unfold thenOk; split
    · exact hf _ h
    · exact h
  unfold filters
  refine step _ _ (step _ _ (step _ _ h ?_) ?_) ?_
  · intro n hn'; exact hP n 6 _ hn' (by omega) (by simp) (by simp)
  · intro n hn'; exact hP n 2 _ hn' (by omega) (by simp) (by simp)
  · intro n hn'
    split
    · next hs => exact hP n 3 _ hn' (by simp [hs]) (by simp) (by simp)
    · exact hn'

theorem filters_ok {env : Env} {nrs : List Nat} {r : Node × Err} (h : (filters env nrs r).2 = E.ok) :
    r.2 = E.ok := by
  by_cases e : r.2 = E.ok
  · exact e
  · simp [filters, thenOk, e] at h

theorem finishHw_eq (env : Env) (n : Node) (idx nr : Nat) (nrs : List Nat) :
    finishHw env n idx nr nrs = filters env nrs (Node.defineCtrl env n idx nr) := rfl

/-- control object and filters of a new module -/
theorem HwInv.finishHw {env : Env} {bd : Nat → Nat} {c nr : Nat} {nrs : List Nat} {n : Node}
    (h : HwInv env bd c n) (hn : env.nObj ≤ 32) (hn2 : 10 < env.nObj) :
    let r := Node.finishHw env n n.nrMod nr nrs
    HwInv env bd c (r.1.bump (n.nrMod + 1)) ∧ KeepsF env n r.1 ∧
    (r.2 = E.ok → ∃ o, o ∈ (r.1.bump (n.nrMod + 1)).ctrls ∧ n.hw.used o = false ∧
      r.1.hw.defs o = some ⟨asyncCtrlRxId nr, 0x7FF#16, 8, .asyncCtrlRx⟩ ∧
      r.1.hw.ctrlMask.getLsbD o = true) := by
  intro r
  have hr : r = filters env nrs (Node.defineCtrl env n n.nrMod nr) := finishHw_eq ..
  clear_value r
  have hc := h.defineCtrl (nr := nr) hn
  simp only at hc
  generalize Node.defineCtrl env n n.nrMod nr = q at hr hc
  have hinv := filters_ind env nrs (fun x => HwInv env bd c (x.bump (n.nrMod + 1)) ∧ KeepsF env q.1 x ∧
      x.hw.ctrlMask = q.1.hw.ctrlMask ∧ (x.bump (n.nrMod + 1)).ctrls = (q.1.bump (n.nrMod + 1)).ctrls)
    hn2 ?_ q ⟨hc.1, .refl _ _, rfl, rfl⟩
  · rw [← hr] at hinv
    refine ⟨hinv.1, hc.2.1.f.trans hinv.2.1, fun e => ?_⟩
    rw [hr] at e
    obtain ⟨o, ho, hu, hd, hus, hm⟩ := hc.2.2 (filters_ok e)
    refine ⟨o, by rw [hinv.2.2.2]; exact ho, hu, ?_, by rw [hinv.2.2.1]; exact hm⟩
    rw [(hinv.2.1 o hus).2 ?_, hd]
    have hnf := (hc.1.asg o (by simp only [assigned, List.mem_append]; exact .inr ho)).2.1
    intro hfo
    exact hnf (by unfold FilterObj at hfo; unfold Fixed; rcases hfo with h | h | h <;> simp [h])
  · rintro x o d ⟨p1, p2, p3, p4⟩ ho d1 d2
    have hon : o < env.nObj := by omega
    refine ⟨?_, p2.trans (define_keepsF env x o d ho hon), by
      rw [(define_masks env x o d hon d1 d2).1]; exact p3, ?_⟩
    · have := p1.defineFilter o d hn2 (by unfold Fixed; rcases ho with h | h | h <;> simp [h]) d1 d2
      rw [define_bump] at this
      exact this
    · obtain ⟨hw, u, e⟩ := define_eq env x o d
      rw [e]; exact p4

/-- the registered data of a row, without the copies used for synchronous transfer -/
def core (r : Row) : Row :=
  { r with rxObjSync := 0, txObjSync := 0, rxDlcSync := fun _ => 0, txDlcSync := fun _ => 0
           rxMainSync := fun _ => .null, txMainSync := fun _ => .null }

/-- `n'` agrees with `n` in the message objects and the registered data -/
structure SameHw (n n' : Node) : Prop where
  hw : n'.hw = n.hw
  slots : n'.slots = n.slots
  ctrl : n'.ctrlObj = n.ctrlObj
  nrMod : n'.nrMod = n.nrMod
  chg : n'.chg = n.chg
  core : ∀ i, core (n'.rows i) = core (n.rows i)

theorem SameHw.refl (n : Node) : SameHw n n := ⟨rfl, rfl, rfl, rfl, rfl, fun _ => rfl⟩
theorem SameHw.trans {a b c : Node} (h : SameHw a b) (h' : SameHw b c) : SameHw a c :=
  ⟨by rw [h'.hw, h.hw], by rw [h'.slots, h.slots], by rw [h'.ctrl, h.ctrl],
   by rw [h'.nrMod, h.nrMod], by rw [h'.chg, h.chg], fun i => by rw [h'.core, h.core]⟩

theorem SameHw.fields {n n' : Node} (h : SameHw n n') (i : Nat) :
    (n'.rows i).typ = (n.rows i).typ ∧ (n'.rows i).nr = (n.rows i).nr ∧
    (n'.rows i).rxObj = (n.rows i).rxObj ∧ (n'.rows i).txObj = (n.rows i).txObj ∧
    (n'.rows i).rxDlc = (n.rows i).rxDlc ∧ (n'.rows i).txDlc = (n.rows i).txDlc ∧
    (n'.rows i).rx = (n.rows i).rx ∧ (n'.rows i).tx = (n.rows i).tx ∧
    (n'.rows i).rxMain = (n.rows i).rxMain ∧ (n'.rows i).txMain = (n.rows i).txMain ∧
    (n'.rows i).rxMsgObj = (n.rows i).rxMsgObj := by
  have := h.core i
  simp only [Node.core, Row.mk.injEq] at this
  exact ⟨this.1, this.2.1, this.2.2.1, this.2.2.2.1, this.2.2.2.2.1, this.2.2.2.2.2.1,
    this.2.2.2.2.2.2.1, this.2.2.2.2.2.2.2.1, this.2.2.2.2.2.2.2.2.1, this.2.2.2.2.2.2.2.2.2.1,
    this.2.2.2.2.2.2.2.2.2.2.1⟩

theorem syncOn_sameHw (n : Node) (tp : Nat) : SameHw n (syncOn n tp) := by
  rw [syncOn_eq]
  refine ⟨rfl, rfl, rfl, rfl, rfl, fun i => ?_⟩
  by_cases e : i = tp
  · subst e; simp [onRow, Node.core]
  · simp only [upd_other _ _ e]

theorem syncOff_sameHw (env : Env) (n : Node) (tp : Nat) : SameHw n (syncOff env n tp) := by
  obtain ⟨m, u, h⟩ := syncOff_eq env n tp
  rw [h]
  refine ⟨rfl, rfl, rfl, rfl, rfl, fun i => ?_⟩
  by_cases e : i = tp
  · subst e; simp [offRow, Node.core]
  · simp only [upd_other _ _ e]

theorem setSilentAwake_sameHw (env : Env) (n : Node) (tp st : Nat) :
    SameHw n (setSilentAwake env n tp st).1 := by
  unfold setSilentAwake
  have h0 : SameHw n { n with silent := upd n.silent tp st
                              log := .silentCb tp (n.rows tp).nr st :: n.log } :=
    ⟨rfl, rfl, rfl, rfl, rfl, fun _ => rfl⟩
  split
  · simp only
    split
    · exact h0.trans (syncOff_sameHw ..)
    · split
      · exact h0.trans (syncOn_sameHw ..)
      · exact h0
  · exact .refl n

theorem report_sameHw (env : Env) (n : Node) (e : Err) : SameHw n (report env n e) := by
  unfold report; split
  · exact ⟨rfl, rfl, rfl, rfl, rfl, fun _ => rfl⟩
  · exact .refl n

theorem report_eq (env : Env) (n : Node) (e : Err) : ∃ q, report env n e = { n with errq := q } := by
  unfold report; split
  · exact ⟨_, rfl⟩
  · exact ⟨n.errq, rfl⟩

/-- a transmission changes only the error queue, the log and the send counter -/
theorem sendOne_eq (env : Env) (n : Node) (tp obj : Nat) (buf : List Byte) :
    ∃ q l k u, (sendOne env n tp obj buf).1 = { n with errq := q, log := l, sendN := k, ub := u } := by
  unfold sendOne
  simp only
  split
  · exact ⟨n.errq, n.log, n.sendN, true, rfl⟩
  · generalize callTx env ((n.rows tp).txMainSync obj) (n.mem ((n.rows tp).tx obj))
      ((n.rows tp).txDlc obj) buf = r
    split
    · simp only [send]
      generalize hx : (if env.sendOk n.sendN = true then E.ok else E.msgSend) = e
      obtain ⟨q, hq⟩ := report_eq env
        { n with log := .frame ⟨n.tx.id tp obj, n.tx.dlc tp obj, r.1.take (n.tx.dlc tp obj)⟩
                    (env.sendOk n.sendN) :: n.log
                 sendN := n.sendN + 1 } e
      exact ⟨q, _, _, n.ub, hq⟩
    · obtain ⟨q, hq⟩ := report_eq env n r.2
      exact ⟨q, n.log, n.sendN, n.ub, hq⟩

theorem sendOne_sameHw (env : Env) (n : Node) (tp obj : Nat) (buf : List Byte) :
    SameHw n (sendOne env n tp obj buf).1 := by
  obtain ⟨q, l, k, u, h⟩ := sendOne_eq env n tp obj buf
  rw [h]
  exact ⟨rfl, rfl, rfl, rfl, rfl, fun _ => rfl⟩

theorem sendRun_ind (env : Env) (P : Node → Prop) (hP : ∀ n tp obj buf, P n → P (sendOne env n tp obj buf).1)
    (k : Nat) (s : SendSt) (h : P s.node) (n' : Node) (he : sendRun env k s = some n') : P n' := by
  induction k generalizing s with
  | zero =>
    simp only [sendRun] at he
    split at he
    · injection he with he; rw [← he]; exact h
    · cases he
  | succ k ih =>
    simp only [sendRun] at he
    split at he
    · injection he with he; rw [← he]; exact h
    · next s' hs =>
      refine ih s' ?_ he
      simp only [sendStep] at hs
      split at hs
      · cases hs
      · split at hs
        · injection hs with hs; rw [← hs]; exact h
        · split at hs
          · injection hs with hs; rw [← hs]; exact hP _ _ _ _ h
          · injection hs with hs; rw [← hs]; exact h

theorem process_sameHw (env : Env) (n : Node) : SameHw n ((sendProcessData env n).getD n) := by
  cases h : sendProcessData env n with
  | none => exact .refl n
  | some n' =>
    exact sendRun_ind env (SameHw n) (fun x tp obj buf hx => hx.trans (sendOne_sameHw ..)) 32 _ (.refl n) n' h

/-- A module that can be reached: each synchronous receive object has a message object programmed
with its identifier, which the receive path attributes to the module, and there is a message
object for its asynchronous control messages. -/
structure Configured (n : Node) (i : Nat) : Prop where
  rx : ∀ j < (n.rows i).rxObj, ((n.rows i).rxMsgObj j, i) ∈ n.slots ∧
    n.hw.defs ((n.rows i).rxMsgObj j) = some (n.rxDef i j)
  ctrl : ∃ o ∈ n.ctrls, n.hw.used o = true ∧
    n.hw.defs o = some ⟨asyncCtrlRxId (n.rows i).nr, 0x7FF#16, 8, .asyncCtrlRx⟩ ∧
    n.hw.ctrlMask.getLsbD o = true

theorem Configured.congr {n n' : Node} {i : Nat} (h : Configured n i) (s : SameHw n n') :
    Configured n' i := by
  have f := s.fields i
  have hc : n'.ctrls = n.ctrls := by simp only [ctrls, s.ctrl, s.nrMod]
  refine ⟨?_, ?_⟩
  · have : ∀ j, n'.rxDef i j = n.rxDef i j := by
      intro j; simp only [rxDef, f.2.1, f.2.2.2.2.1]
    simp only [this]
    rw [f.2.2.1, f.2.2.2.2.2.2.2.2.2.2, s.slots, s.hw]; exact h.rx
  · rw [hc, s.hw, f.2.1]; exact h.ctrl

theorem HwInv.same {env : Env} {bd : Nat → Nat} {c : Nat} {n n' : Node} (h : HwInv env bd c n)
    (s : SameHw n n') : HwInv env bd c n' := by
  refine h.congr (fun _ => Nat.le_refl _) (Nat.le_refl _) s.hw s.slots s.ctrl s.nrMod ?_
  intro i _
  have f := s.fields i
  exact ⟨f.2.2.2.2.2.2.2.2.2.2, f.2.1, f.2.2.2.2.1⟩

/-- nothing already assigned is taken away -/
structure Mono (n n' : Node) : Prop where
  slots : ∀ s ∈ n.slots, s ∈ n'.slots
  mask : ∀ o, n.hw.ctrlMask.getLsbD o = true → n'.hw.ctrlMask.getLsbD o = true
  nrMod : n.nrMod ≤ n'.nrMod
  ctrl : ∀ k < n.nrMod, n'.ctrlObj k = n.ctrlObj k

theorem Mono.refl (n : Node) : Mono n n := ⟨fun _ h => h, fun _ h => h, Nat.le_refl _, fun _ _ => rfl⟩
theorem Mono.trans {a b c : Node} (h : Mono a b) (h' : Mono b c) : Mono a c :=
  ⟨fun s hs => h'.slots s (h.slots s hs), fun o ho => h'.mask o (h.mask o ho),
   Nat.le_trans h.nrMod h'.nrMod, fun k hk => by
     rw [h'.ctrl k (Nat.lt_of_lt_of_le hk h.nrMod), h.ctrl k hk]⟩
theorem Mono.of_same {n n' : Node} (h : SameHw n n') : Mono n n' :=
  ⟨by rw [h.slots]; exact fun _ h => h, by rw [h.hw]; exact fun _ h => h, by rw [h.nrMod]; exact Nat.le_refl _,
   fun k _ => by rw [h.ctrl]⟩

theorem Mono.thenOk {n : Node} {r : Node × Err} {f : Node → Node × Err} (h : Mono n r.1)
    (hf : ∀ n', Mono n' (f n').1) : Mono n (Node.thenOk r f).1 := by
  unfold Node.thenOk; split
  · exact h.trans (hf _)
  · exact h

theorem Mono.forErr {f : Nat → Node → Node × Err} (hf : ∀ i n, Mono n (f i n).1)
    (l : List Nat) (n : Node) : Mono n (Node.forErr f l n).1 := by
  induction l generalizing n with
  | nil => exact .refl n
  | cons i l ih => exact (hf i n).thenOk ih

theorem define_mono (env : Env) (n : Node) (o : Nat) (d : ObjDef) : Mono n (define env n o d).1 := by
  unfold define
  split
  · exact ⟨fun _ h => h, fun _ h => h, Nat.le_refl _, fun _ _ => rfl⟩
  · simp only
    split
    · refine ⟨fun _ h => h, ?_, Nat.le_refl _, fun _ _ => rfl⟩
      intro x hx
      simp only
      split
      · simp [hx]
      · exact hx
    · exact ⟨fun _ h => h, fun _ h => h, Nat.le_refl _, fun _ _ => rfl⟩

theorem setRx1_mono (env : Env) (i nr k : Nat) (n : Node) : Mono n (Node.setRx1 env i nr k n).1 := by
  unfold Node.setRx1
  simp only
  split
  · exact ⟨fun _ h => h, fun _ h => h, Nat.le_refl _, fun _ _ => rfl⟩
  · refine Mono.thenOk ?_ ?_
    · refine Mono.trans ?_ (define_mono ..)
      exact ⟨fun _ h => h, fun _ h => h, Nat.le_refl _, fun _ _ => rfl⟩
    · intro n'
      unfold addSlot
      split
      · exact ⟨fun s hs => by simp [hs], fun _ h => h, Nat.le_refl _, fun _ _ => rfl⟩
      · exact .refl _

theorem setRx_mono (env : Env) (n : Node) (i nr : Nat) : Mono n (Node.setRx env n i nr).1 :=
  Mono.trans (b := n.setRow i fun r => { r with rxObjSync := r.rxObj })
    ⟨fun _ h => h, fun _ h => h, Nat.le_refl _, fun _ _ => rfl⟩
    (Mono.forErr (fun _ _ => setRx1_mono ..) _ _)

theorem defineCtrl_mono (env : Env) (n : Node) (nr : Nat) :
    Mono n (Node.defineCtrl env n n.nrMod nr).1 := by
  unfold Node.defineCtrl
  split
  · exact .refl _
  · split
    · exact .refl _
    · refine Mono.trans ?_ (define_mono ..)
      refine ⟨fun _ h => h, fun _ h => h, Nat.le_refl _, fun k hk => ?_⟩
      simp only
      rw [upd_other _ _ (by omega)]

theorem finishHw_mono (env : Env) (n : Node) (nr : Nat) (nrs : List Nat) :
    Mono n (Node.finishHw env n n.nrMod nr nrs).1 := by
  unfold Node.finishHw
  refine ((((defineCtrl_mono env n nr).thenOk fun n => define_mono ..).thenOk
    fun n => define_mono ..).thenOk fun n => ?_)
  split
  · exact define_mono ..
  · exact .refl _

theorem Mono.ctrls {n n' : Node} (h : Mono n n') : ∀ o ∈ n.ctrls, o ∈ n'.ctrls := by
  intro o ho
  simp only [Node.ctrls, List.mem_filter, List.mem_map, List.mem_range] at ho ⊢
  obtain ⟨⟨k, hk, rfl⟩, h0⟩ := ho
  exact ⟨⟨k, Nat.lt_of_lt_of_le hk h.nrMod, h.ctrl k hk⟩, h0⟩

/-- modules registered earlier stay reachable -/
theorem Configured.mono {env : Env} {bd : Nat → Nat} {c : Nat} {n n' : Node} {i : Nat}
    (h : Configured n i) (hi : HwInv env bd c n) (hk : KeepsF env n n') (hm : Mono n n')
    (hc : core (n'.rows i) = core (n.rows i)) : Configured n' i := by
  simp only [core, Row.mk.injEq] at hc
  refine ⟨?_, ?_⟩
  · rw [hc.2.2.1, hc.2.2.2.2.2.2.2.2.2.2.1]
    have hd : ∀ j, n'.rxDef i j = n.rxDef i j := by
      intro j; simp only [rxDef, hc.2.1, hc.2.2.2.2.1]
    intro j hj
    obtain ⟨g1, g2⟩ := h.rx j hj
    have ha := hi.asg _ (by
          simp only [assigned, List.mem_append, List.mem_map]; exact .inl ⟨_, g1, rfl⟩)
    refine ⟨hm.slots _ g1, ?_⟩
    rw [(hk _ ha.2.2).2 ?_, g2, hd]
    intro hf
    exact ha.2.1 hf.fixed
  · obtain ⟨o, ho, hu, hd, hb⟩ := h.ctrl
    refine ⟨o, hm.ctrls o ho, (hk o hu).1, ?_, hm.mask o hb⟩
    rw [(hk o hu).2 ?_, hd, hc.2.1]
    intro hf
    have := (hi.asg o (by simp only [assigned, List.mem_append]; exact .inr ho)).2.1
    exact this (by unfold FilterObj at hf; unfold Fixed; rcases hf with h | h | h <;> simp [h])

/-- `can_config_set_module` -/
theorem HwInv.setModule {env : Env} {bd : Nat → Nat} {c i nr : Nat} {n : Node} {tpl : Row}
    {rx tx : Nat → Nat} (h : HwInv env bd c n) (hn : env.nObj ≤ 32) (hn2 : 10 < env.nObj)
    (hi : i < env.maxMod) (hbi : bd i = 0) (h4 : tpl.txObj ≤ 4) (hc : c + tpl.rxObj ≤ 4 * env.maxMod) :
    let r := Node.setModule env n i tpl nr rx tx
    HwInv env (bdAt bd i tpl.rxObj) (c + tpl.rxObj) r.1 ∧ KeepsF env n r.1 ∧
    r.1.nrMod ≤ n.nrMod + 1 ∧ Mono n r.1 ∧
    (∀ x, x ≠ i → core (r.1.rows x) = core (n.rows x)) ∧
    (r.2 = E.ok → Configured r.1 i) := by
  intro r
  have hr : r = Node.setModule env n i tpl nr rx tx := rfl
  clear_value r
  simp only [Node.setModule] at hr
  have hset : setTx env (n.fillRow i tpl (effNr i nr) rx tx) i (effNr i nr) = _ :=
    setTx_eq env _ _ _ hi (by simpa [fillRow, setRow] using h4)
  rw [hset, thenOk_ok] at hr
  generalize hn1 : ({ n.fillRow i tpl (effNr i nr) rx tx with
      rows := upd (n.fillRow i tpl (effNr i nr) rx tx).rows i
        { (n.fillRow i tpl (effNr i nr) rx tx).rows i with
          txDlcSync := first ((n.fillRow i tpl (effNr i nr) rx tx).rows i).txObj
            ((n.fillRow i tpl (effNr i nr) rx tx).rows i).txDlc
            ((n.fillRow i tpl (effNr i nr) rx tx).rows i).txDlcSync }
      tx := cnfgTx (n.fillRow i tpl (effNr i nr) rx tx).tx
        ((n.fillRow i tpl (effNr i nr) rx tx).rows i).txDlc i (effNr i nr)
        ((n.fillRow i tpl (effNr i nr) rx tx).rows i).txObj } : Node) = n1 at hr
  have b1 : n1.hw = n.hw := by rw [← hn1]; rfl
  have b2 : n1.slots = n.slots := by rw [← hn1]; rfl
  have b3 : n1.ctrlObj = n.ctrlObj := by rw [← hn1]; rfl
  have b4 : n1.nrMod = n.nrMod := by rw [← hn1]; rfl
  have b5 : ∀ x, x ≠ i → n1.rows x = n.rows x := by
    intro x hx; rw [← hn1]; simp only [fillRow, setRow]
    rw [upd_other _ _ hx, upd_other _ _ hx]
  have b6 : (n1.rows i).nr = effNr i nr := by rw [← hn1]; simp [fillRow, setRow]
  have b7 : (n1.rows i).rxObj = tpl.rxObj := by rw [← hn1]; simp [fillRow, setRow]
  have m1 : Mono n n1 := ⟨by rw [b2]; exact fun _ h => h, by rw [b1]; exact fun _ h => h,
    by rw [b4]; exact Nat.le_refl _, fun _ _ => by rw [b3]⟩
  have i1 : HwInv env (bdAt bd i 0) c n1 := by
    refine h.congr ?_ (Nat.le_refl _) b1 b2 b3 b4 ?_
    · intro x; simp only [bdAt, upd]; split
      · next e => rw [e, hbi]; omega
      · exact Nat.le_refl _
    · intro x hx
      have : x ≠ i := by rintro rfl; omega
      rw [b5 x this]; exact ⟨rfl, rfl, rfl⟩
  have i2 := i1.setRx b6 hn (by rw [b7]; exact hc)
  have m2 := setRx_mono env n1 i (effNr i nr)
  have r2 := setRx_rxOnly env n1 i (effNr i nr)
  simp only at i2
  have k1 : Keeps n n1 := by intro o ho; rw [b1]; exact ⟨ho, rfl⟩
  have core2 : ∀ x, x ≠ i → core (((Node.setRx env n1 i (effNr i nr)).1).rows x) = core (n.rows x) := by
    intro x hx
    obtain ⟨_, _, _, _, _, _, e⟩ := r2
    rw [e]; simp only [setRow]
    rw [upd_other _ _ hx, upd_other _ _ hx, b5 x hx]
  have row2 : (((Node.setRx env n1 i (effNr i nr)).1).rows i).rxObj = tpl.rxObj ∧
      (((Node.setRx env n1 i (effNr i nr)).1).rows i).nr = effNr i nr ∧
      ((Node.setRx env n1 i (effNr i nr)).1).nrMod = n.nrMod := by
    obtain ⟨_, _, _, _, _, _, e⟩ := r2
    rw [e]; simp [setRow, b7, b6, b4]
  rw [b7] at i2
  generalize Node.setRx env n1 i (effNr i nr) = q at hr i2 m2 core2 row2
  obtain ⟨n2, e2⟩ := q
  simp only at i2 m2 core2 row2
  by_cases he2 : e2 = E.ok
  · subst he2
    rw [thenOk_ok, finish_eq] at hr
    have i3 := i2.1.finishHw (nr := effNr i nr) (nrs := (List.range (i + 1)).map fun i => (n2.rows i).nr) hn hn2
    have m3 := finishHw_mono env n2 (effNr i nr) ((List.range (i + 1)).map fun i => (n2.rows i).nr)
    have h3 := finishHw_hwOnly env n2 n2.nrMod (effNr i nr) ((List.range (i + 1)).map fun i => (n2.rows i).nr)
    simp only at i3
    generalize Node.finishHw env n2 n2.nrMod (effNr i nr)
      ((List.range (i + 1)).map fun i => (n2.rows i).nr) = q3 at hr i3 m3 h3
    obtain ⟨n3, e3⟩ := q3
    simp only at i3 m3 h3
    have row3 : n3.rows = n2.rows ∧ n3.nrMod = n2.nrMod := by
      obtain ⟨_, _, _, _, e⟩ := h3; rw [e]; exact ⟨rfl, rfl⟩
    -- the last step
    have last : ∀ (n4 : Node) (e : Err), SameHw n3 n4 → r = ({ n4 with nrMod := n4.nrMod + 1 }, e) →
        HwInv env (bdAt bd i tpl.rxObj) (c + tpl.rxObj) r.1 ∧ KeepsF env n r.1 ∧
        r.1.nrMod ≤ n.nrMod + 1 ∧ Mono n r.1 ∧
        (∀ x, x ≠ i → core (r.1.rows x) = core (n.rows x)) ∧
        (e3 = E.ok → Configured r.1 i) := by
      intro n4 e s4 hr
      have hnm : n4.nrMod + 1 = n2.nrMod + 1 := by rw [s4.nrMod, row3.2]
      have s5 : SameHw (n3.bump (n2.nrMod + 1)) r.1 := by
        rw [hr]
        exact ⟨s4.hw, s4.slots, s4.ctrl, hnm, s4.chg, s4.core⟩
      have m4 : Mono n3 (n3.bump (n2.nrMod + 1)) :=
        ⟨fun _ h => h, fun _ h => h, by rw [row3.2]; simp only [bump]; omega, fun _ _ => rfl⟩
      refine ⟨i3.1.same s5, ?_, ?_, ((m1.trans m2).trans m3).trans (m4.trans (.of_same s5)), ?_, ?_⟩
      · have k3 : KeepsF env n n3 := (k1.f.trans i2.2.1.f).trans i3.2.1
        intro o ho
        rw [hr]; simp only [s4.hw]; exact k3 o ho
      · rw [hr]; simp only [hnm, row2.2.2]; omega
      · intro x hx
        rw [s5.core x]; simp only [bump, row3.1]; exact core2 x hx
      · intro he3
        refine Configured.congr (n := n3.bump (n2.nrMod + 1)) ⟨?_, ?_⟩ s5
        · simp only [bump, row3.1, row2.1]
          intro j hj
          obtain ⟨g1, g2⟩ := i2.2.2 rfl j hj
          have ha := i2.1.asg _ (by
              simp only [assigned, List.mem_append, List.mem_map]; exact .inl ⟨_, g1, rfl⟩)
          refine ⟨m3.slots _ g1, ?_⟩
          rw [(i3.2.1 _ ha.2.2).2 ?_, g2]
          · simp only [rxDef]
          · intro hf
            exact ha.2.1 hf.fixed
        · obtain ⟨o, ho, _, hd, hb⟩ := i3.2.2 he3
          refine ⟨o, ho, (i3.1.asg o (by simp only [assigned, List.mem_append]; exact .inr ho)).2.2, ?_, hb⟩
          simp only [bump, row3.1, row2.2.1, hd]
    by_cases he3 : e3 = E.ok
    · subst he3
      rw [thenOk_ok] at hr
      have := last _ _ (setSilentAwake_sameHw env n3 i (n3.silent i)) hr
      exact ⟨this.1, this.2.1, this.2.2.1, this.2.2.2.1, this.2.2.2.2.1, fun _ => this.2.2.2.2.2 rfl⟩
    · have hte : thenOk (n3, e3) (fun n => setSilentAwake env n i (n.silent i)) = (n3, e3) := by
        simp [thenOk, he3]
      rw [hte] at hr
      have := last _ _ (.refl n3) hr
      refine ⟨this.1, this.2.1, this.2.2.1, this.2.2.2.1, this.2.2.2.2.1, fun he => ?_⟩
      rw [hr] at he; exact absurd he he3
  · have hte : ∀ f, thenOk (n2, e2) f = (n2, e2) := by
      intro f; simp [thenOk, he2]
    rw [hte] at hr
    subst hr
    exact ⟨i2.1, (k1.trans i2.2.1).f, by rw [row2.2.2]; omega, m1.trans m2, core2,
      fun e => absurd e he2⟩

/-- the row written by `can_config_set_module` -/
theorem setModule_rxObj (env : Env) (n : Node) (i : Nat) (tpl : Row) (nr : Nat) (rx tx : Nat → Nat)
    (hi : i < env.maxMod) (h4 : tpl.txObj ≤ 4) :
    ((Node.setModule env n i tpl nr rx tx).1.rows i).rxObj = tpl.rxObj := by
  simp only [Node.setModule]
  have hset : setTx env (n.fillRow i tpl (effNr i nr) rx tx) i (effNr i nr) = _ :=
    setTx_eq env _ _ _ hi (by simpa [fillRow, setRow] using h4)
  have h1 : ((setTx env (n.fillRow i tpl (effNr i nr) rx tx) i (effNr i nr)).1.rows i).rxObj = tpl.rxObj := by
    rw [hset]; simp [fillRow, setRow]
  have step : ∀ (r : Node × Err) (f : Node → Node × Err), (r.1.rows i).rxObj = tpl.rxObj →
      (∀ n, (n.rows i).rxObj = tpl.rxObj → ((f n).1.rows i).rxObj = tpl.rxObj) →
      ((thenOk r f).1.rows i).rxObj = tpl.rxObj := by
    intro r f h hf; unfold thenOk; split
    · exact hf _ h
    · exact h
  refine step _ _ h1 fun n1 hn1 => step _ _ ?_ fun n2 hn2 => ?_
  · obtain ⟨_, _, _, _, _, _, e⟩ := setRx_rxOnly env n1 i (effNr i nr)
    rw [e]; simpa [setRow] using hn1
  · simp only
    rw [finish_eq]
    refine step _ _ ?_ fun n3 hn3 => ?_
    · obtain ⟨_, _, _, _, e⟩ := finishHw_hwOnly env n2 n2.nrMod (effNr i nr)
        ((List.range (i + 1)).map fun i => (n2.rows i).nr)
      rw [e]; exact hn2
    · rw [((setSilentAwake_sameHw env n3 i (n3.silent i)).fields i).2.2.1]; exact hn3

theorem setModule_rxDlc (env : Env) (n : Node) (i : Nat) (tpl : Row) (nr : Nat) (rx tx : Nat → Nat)
    (hi : i < env.maxMod) (h4 : tpl.txObj ≤ 4) :
    ((Node.setModule env n i tpl nr rx tx).1.rows i).rxDlc = tpl.rxDlc := by
  simp only [Node.setModule]
  have hset : setTx env (n.fillRow i tpl (effNr i nr) rx tx) i (effNr i nr) = _ :=
    setTx_eq env _ _ _ hi (by simpa [fillRow, setRow] using h4)
  have h1 : ((setTx env (n.fillRow i tpl (effNr i nr) rx tx) i (effNr i nr)).1.rows i).rxDlc = tpl.rxDlc := by
    rw [hset]; simp [fillRow, setRow]
  have step : ∀ (r : Node × Err) (f : Node → Node × Err), (r.1.rows i).rxDlc = tpl.rxDlc →
      (∀ n, (n.rows i).rxDlc = tpl.rxDlc → ((f n).1.rows i).rxDlc = tpl.rxDlc) →
      ((thenOk r f).1.rows i).rxDlc = tpl.rxDlc := by
    intro r f h hf; unfold thenOk; split
    · exact hf _ h
    · exact h
  refine step _ _ h1 fun n1 hn1 => step _ _ ?_ fun n2 hn2 => ?_
  · obtain ⟨_, _, _, _, _, _, e⟩ := setRx_rxOnly env n1 i (effNr i nr)
    rw [e]; simpa [setRow] using hn1
  · simp only
    rw [finish_eq]
    refine step _ _ ?_ fun n3 hn3 => ?_
    · obtain ⟨_, _, _, _, e⟩ := finishHw_hwOnly env n2 n2.nrMod (effNr i nr)
        ((List.range (i + 1)).map fun i => (n2.rows i).nr)
      rw [e]; exact hn2
    · rw [((setSilentAwake_sameHw env n3 i (n3.silent i)).fields i).2.2.2.2.1]; exact hn3

end LiCan.Node
