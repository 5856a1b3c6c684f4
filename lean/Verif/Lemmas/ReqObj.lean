import Verif.Lemmas.NodeTrace
import Verif.Lemmas.Objects
import Verif.Lemmas.SlaveHw
import Verif.Spec.ReqObj
/-! # The message object for process requests -/
namespace LiCan
open Spec Node
namespace Node

/-- As long as message object 0 is marked as used it keeps its definition, and no message object is taken from a row. -/
structure K0 (n n' : Node) : Prop where
  used : n.hw.used 0 = true → n'.hw.used 0 = true
  defs : n.hw.used 0 = true → n'.hw.defs 0 = n.hw.defs 0
  msg : n.hw.used 0 = true → ∀ t j, (n.rows t).rxMsgObj j ≠ 0 → (n'.rows t).rxMsgObj j ≠ 0
  cnt : ∀ t, (n'.rows t).rxObj = (n.rows t).rxObj
  typ : ∀ t, (n'.rows t).typ = (n.rows t).typ
  chg : n'.chg = n.chg

theorem K0.refl (n : Node) : K0 n n := ⟨id, fun _ => rfl, fun _ _ _ h => h, fun _ => rfl, fun _ => rfl, rfl⟩

theorem K0.trans {a b c : Node} (h : K0 a b) (g : K0 b c) : K0 a c :=
  ⟨fun u => g.used (h.used u), fun u => (g.defs (h.used u)).trans (h.defs u), fun u t j k => g.msg (h.used u) t j (h.msg u t j k),
   fun t => (g.cnt t).trans (h.cnt t), fun t => (g.typ t).trans (h.typ t), g.chg.trans h.chg⟩

theorem K0.thenOk {n : Node} {r : Node × Err} {f : Node → Node × Err} (h : K0 n r.1) (hf : ∀ x, K0 x (f x).1) :
    K0 n (Node.thenOk r f).1 := by
  unfold Node.thenOk; split
  · exact h.trans (hf _)
  · exact h

theorem K0.forErr {f : Nat → Node → Node × Err} (hf : ∀ i x, K0 x (f i x).1) :
    ∀ (l : List Nat) (n : Node), K0 n (Node.forErr f l n).1
  | [], n => .refl n
  | i :: l, n => by unfold Node.forErr; exact (hf i n).thenOk fun x => K0.forErr hf l x

theorem K0.same {n n' : Node} (s : SameHw n n') : K0 n n' :=
  ⟨fun u => by rw [s.hw]; exact u, fun _ => by rw [s.hw], fun _ t j k => by rw [(s.fields t).2.2.2.2.2.2.2.2.2.2]; exact k,
   fun t => (s.fields t).2.2.1, fun t => (s.fields t).1, s.chg⟩

theorem K0.rows {n n' : Node} (h1 : n'.hw = n.hw) (h2 : n'.rows = n.rows) (h3 : n'.chg = n.chg) : K0 n n' :=
  ⟨fun u => by rw [h1]; exact u, fun _ => by rw [h1], fun _ t j k => by rw [h2]; exact k, fun t => by rw [h2],
   fun t => by rw [h2], h3⟩

/-- a change of a row which leaves the receive objects alone -/
theorem K0.setRow (n : Node) (i : Nat) (f : Row → Row) (h1 : ∀ r, (f r).rxMsgObj = r.rxMsgObj) (h2 : ∀ r, (f r).rxObj = r.rxObj)
    (h3 : ∀ r, (f r).typ = r.typ) : K0 n (n.setRow i f) := by
  refine ⟨id, fun _ => rfl, fun _ t j k => ?_, fun t => ?_, fun t => ?_, rfl⟩ <;> simp only [Node.setRow, upd]
  · split
    · next e => subst e; rw [h1]; exact k
    · exact k
  · split
    · next e => subst e; rw [h2]
    · rfl
  · split
    · next e => subst e; rw [h3]
    · rfl

theorem txCnfg_rows0 (env : Env) (n : Node) (tp obj nr : Nat) : (txCnfg env n tp obj nr).1.rows = n.rows ∧
    (txCnfg env n tp obj nr).1.chg = n.chg := by
  unfold txCnfg; split
  · exact ⟨rfl, rfl⟩
  · split <;> exact ⟨rfl, rfl⟩

theorem txCnfg_k0 (env : Env) (n : Node) (tp obj nr : Nat) : K0 n (txCnfg env n tp obj nr).1 :=
  .rows (Slave.txCnfg_hw ..) (txCnfg_rows0 ..).1 (txCnfg_rows0 ..).2

theorem define_k0 (env : Env) (n : Node) (o : Nat) (d : ObjDef) (ho : n.hw.used 0 = true → o ≠ 0) : K0 n (define env n o d).1 := by
  have hr := define_rows env n o d
  have hc : (define env n o d).1.chg = n.chg := by obtain ⟨_, _, e⟩ := define_eq env n o d; rw [e]
  by_cases hb : o < env.nObj
  · rcases define_cases env n o d hb with ⟨_, e⟩ | ⟨_, e⟩
    · refine ⟨fun u => ?_, fun u => ?_, fun _ t j k => by rw [hr]; exact k, fun t => by rw [hr], fun t => by rw [hr], hc⟩
      · rw [e]; simp only [upd]; split
        · rfl
        · exact u
      · rw [e]; exact upd_other _ _ (Ne.symm (ho u))
    · refine ⟨fun u => ?_, fun u => ?_, fun _ t j k => by rw [hr]; exact k, fun t => by rw [hr], fun t => by rw [hr], hc⟩
      · rw [e]; simp only [upd]; split
        · rfl
        · exact u
      · rw [e]
  · unfold define
    rw [if_pos (Nat.le_of_not_lt hb)]
    exact .rows rfl rfl rfl

theorem free_ne0 {env : Env} {n : Node} {o : Nat} (h : n.nextFree env = some o) (u : n.hw.used 0 = true) : o ≠ 0 := by
  rintro rfl
  have := (nextFree_some h).2
  rw [u] at this; exact nomatch this

theorem addSlot_k0 (env : Env) (n : Node) (o tp : Nat) : K0 n (addSlot env n o tp).1 := by
  unfold addSlot; split
  · exact .rows rfl rfl rfl
  · exact .refl n

theorem setRx1_k0 (env : Env) (tp nr i : Nat) (n : Node) : K0 n (setRx1 env tp nr i n).1 := by
  unfold setRx1
  dsimp only
  refine K0.trans (K0.setRow n tp (fun r => { r with rxDlcSync := upd r.rxDlcSync i (r.rxDlc i) }) (fun _ => rfl) (fun _ => rfl)
    (fun _ => rfl)) ?_
  generalize (n.setRow tp fun r => { r with rxDlcSync := upd r.rxDlcSync i (r.rxDlc i) }) = n1
  split
  · exact .refl n1
  · next o ho =>
    have h1 : K0 n1 (n1.setRow tp fun r => { r with rxMsgObj := upd r.rxMsgObj i o }) := by
      refine ⟨id, fun _ => rfl, fun u t j k => ?_, fun t => ?_, fun t => ?_, rfl⟩ <;> simp only [Node.setRow, upd]
      · split
        · next e =>
          subst e; dsimp only [upd]
          split
          · exact free_ne0 ho u
          · exact k
        · exact k
      · split
        · next e => subst e; rfl
        · rfl
      · split
        · next e => subst e; rfl
        · rfl
    refine h1.trans (K0.thenOk (define_k0 env _ o _ fun u => ?_) fun x => addSlot_k0 ..)
    exact free_ne0 ho u

theorem defineCtrl_k0 (env : Env) (n : Node) (idx nr : Nat) : K0 n (defineCtrl env n idx nr).1 := by
  unfold defineCtrl
  split
  · exact .refl n
  · split
    · exact .refl n
    · next o ho =>
      exact K0.trans (b := { n with ctrlObj := upd n.ctrlObj idx o }) (.rows rfl rfl rfl)
        (define_k0 _ _ _ _ fun u => free_ne0 ho u)

theorem finish_k0 (env : Env) (n : Node) (tp idx nr : Nat) (nrs : List Nat) : K0 n (finish env n tp idx nr nrs).1 := by
  unfold finish
  dsimp only
  refine K0.thenOk (K0.thenOk (K0.thenOk (K0.thenOk (defineCtrl_k0 ..) fun x => define_k0 _ _ _ _ fun _ => by decide)
    fun x => define_k0 _ _ _ _ fun _ => by decide) fun x => ?_) fun x => .same (setSilentAwake_sameHw ..)
  split
  · exact define_k0 _ _ _ _ fun _ => by decide
  · exact .refl x

/-- a registration, from the state with the template copied on -/
theorem setModule_k0 (env : Env) (n : Node) (tp : Nat) (tpl : Row) (nr : Nat) (rx tx : Nat → Nat) :
    K0 (n.fillRow tp tpl (effNr tp nr) rx tx) (setModule env n tp tpl nr rx tx).1 := by
  unfold setModule
  dsimp only
  refine K0.thenOk ?_ fun x => K0.thenOk ?_ fun x => ?_
  · refine K0.forErr (fun i x => ?_) _ _
    refine K0.trans ?_ (txCnfg_k0 ..)
    exact K0.setRow x tp (fun r => { r with txDlcSync := upd r.txDlcSync i (r.txDlc i) }) (fun _ => rfl) (fun _ => rfl) (fun _ => rfl)
  · unfold setRx
    refine K0.trans (K0.setRow x tp (fun r => { r with rxObjSync := r.rxObj }) (fun _ => rfl) (fun _ => rfl) (fun _ => rfl)) ?_
    exact K0.forErr (fun i x => setRx1_k0 ..) _ _
  · have h := finish_k0 env x tp x.nrMod (effNr tp nr) ((List.range (tp + 1)).map fun i => (x.rows i).nr)
    generalize finish env x tp x.nrMod (effNr tp nr) ((List.range (tp + 1)).map fun i => (x.rows i).nr) = q at *
    exact h.trans (.rows rfl rfl rfl)

/-- a successful loop -/
theorem forErr_each {f : Nat → Node → Node × Err} : ∀ (l : List Nat) (n : Node), (forErr f l n).2 = E.ok →
    ∀ j ∈ l, ∃ x, (f j x).2 = E.ok
  | [], _, _, _, hj => nomatch hj
  | i :: l, n, h, j, hj => by
    unfold forErr thenOk at h
    split at h
    · next h1 =>
      rcases List.mem_cons.1 hj with e | e
      · exact ⟨n, by rw [e]; exact h1⟩
      · exact forErr_each l _ h j e
    · next h1 => exact absurd h h1

/-- the receive objects of a row get new definitions -/
theorem renumRx_k0 (env : Env) (tp nr : Nat) : ∀ (l : List Nat) (n : Node), (∀ j ∈ l, (n.rows tp).rxMsgObj j ≠ 0) →
    K0 n (forErr (fun i n => define env n ((n.rows tp).rxMsgObj i) ⟨syncRxId nr i, 0x7FF#16, (n.rows tp).rxDlc i, .rx true⟩) l n).1
  | [], n, _ => .refl n
  | i :: l, n, h => by
    have h1 := define_k0 env n ((n.rows tp).rxMsgObj i) ⟨syncRxId nr i, 0x7FF#16, (n.rows tp).rxDlc i, .rx true⟩
      fun _ => h i (by simp)
    unfold forErr thenOk
    split
    · refine h1.trans (renumRx_k0 env tp nr l _ fun j hj => ?_)
      rw [define_rows]; exact h j (by simp [hj])
    · exact h1

/-- process data of a module in message object 0 -/
def Data0 (n : Node) : Prop := ∃ d : ObjDef, n.hw.defs 0 = some d ∧ d.svc = .rx true

theorem renumRx_data0 (env : Env) (hhw : ∀ k, env.hwOk k = true) (h0 : 0 < env.nObj) (tp nr : Nat) :
    ∀ (l : List Nat) (n : Node), (Data0 n ∨ ∃ j ∈ l, (n.rows tp).rxMsgObj j = 0) → let r := forErr (fun i n =>
      define env n ((n.rows tp).rxMsgObj i) ⟨syncRxId nr i, 0x7FF#16, (n.rows tp).rxDlc i, .rx true⟩) l n
      r.2 = E.ok ∧ Data0 r.1
  | [], n, h => ⟨rfl, by rcases h with h | ⟨j, hj, _⟩; exact h; exact nomatch hj⟩
  | i :: l, n, h => by
    have ok : (define env n ((n.rows tp).rxMsgObj i) ⟨syncRxId nr i, 0x7FF#16, (n.rows tp).rxDlc i, .rx true⟩).2 = E.ok := by
      by_cases hb : (n.rows tp).rxMsgObj i < env.nObj
      · exact define_ok _ _ _ _ hhw hb
      · unfold define; rw [if_pos (Nat.le_of_not_lt hb)]
    have dat : Data0 n ∨ (n.rows tp).rxMsgObj i = 0 →
        Data0 (define env n ((n.rows tp).rxMsgObj i) ⟨syncRxId nr i, 0x7FF#16, (n.rows tp).rxDlc i, .rx true⟩).1 := by
      intro hd
      by_cases hb : (n.rows tp).rxMsgObj i < env.nObj
      · rcases define_cases env n _ ⟨syncRxId nr i, 0x7FF#16, (n.rows tp).rxDlc i, .rx true⟩ hb with ⟨_, e⟩ | ⟨k, e⟩
        · unfold Data0
          rw [e]
          by_cases hz : (n.rows tp).rxMsgObj i = 0
          · exact ⟨_, by simp only [hz]; exact upd_same _ _ _, rfl⟩
          · obtain ⟨d, hd, hs⟩ := hd.resolve_right hz
            exact ⟨d, (upd_other _ _ (Ne.symm hz)).trans hd, hs⟩
        · rw [hhw] at k; exact nomatch k
      · unfold define
        rw [if_pos (Nat.le_of_not_lt hb)]
        exact hd.resolve_right (by omega)
    simp only [forErr, thenOk, ok, if_true]
    refine renumRx_data0 env hhw h0 tp nr l _ ?_
    rw [define_rows]
    rcases h with h | ⟨j, hj, hz⟩
    · exact .inl (dat (.inl h))
    · rcases List.mem_cons.1 hj with e | e
      · exact .inl (dat (.inr (e ▸ hz)))
      · exact .inr ⟨j, e, hz⟩

theorem renumTx_k0 (env : Env) (n : Node) (tp nr : Nat) : K0 n (renumTx env n tp nr).1 :=
  K0.forErr (fun _ _ => txCnfg_k0 ..) _ _

/-- a number change of a row with all message objects -/
theorem changeNr_k0 (env : Env) (n : Node) (typ : List Byte) (nr act : Nat)
    (h : ∀ i, n.findTypeNr env typ act = some i → ¬ ((n.rows i).txObj ≤ 4 ∧ Unplaced n i)) :
    K0 n (changeNr env n typ nr act).1 := by
  unfold changeNr
  split
  · exact .rows rfl rfl rfl
  · next tp hf =>
    have hn := h tp hf
    dsimp only
    refine K0.trans (K0.setRow n tp (fun r => { r with nr := nr }) (fun _ => rfl) (fun _ => rfl) (fun _ => rfl)) ?_
    have a1 : ((n.setRow tp fun r => { r with nr := nr }).rows tp).rxMsgObj = (n.rows tp).rxMsgObj ∧
        ((n.setRow tp fun r => { r with nr := nr }).rows tp).rxObj = (n.rows tp).rxObj ∧
        ((n.setRow tp fun r => { r with nr := nr }).rows tp).txObj = (n.rows tp).txObj := by simp [Node.setRow]
    generalize (n.setRow tp fun r => { r with nr := nr }) = n1 at a1
    have htx := renumTx_k0 env n1 tp nr
    have hrows : (renumTx env n1 tp nr).1.rows = n1.rows := by
      have : ∀ (l : List Nat) (x : Node), (forErr (fun i n => txCnfg env n tp i nr) l x).1.rows = x.rows := by
        intro l
        induction l with
        | nil => exact fun _ => rfl
        | cons i l ih =>
          intro x; unfold forErr thenOk; split
          · rw [ih]; exact (txCnfg_rows0 ..).1
          · exact (txCnfg_rows0 ..).1
      exact this _ _
    unfold thenOk
    split
    · next hok =>
      have h4 : (n.rows tp).txObj ≤ 4 := by
        refine Nat.le_of_not_lt fun hlt => ?_
        obtain ⟨x, hx⟩ := forErr_each _ _ hok 4 (List.mem_range.2 (by rw [a1.2.2]; exact hlt))
        unfold txCnfg at hx
        split at hx
        · simp at hx
        · simp at hx
      refine htx.trans (K0.thenOk ?_ fun x => finish_k0 ..)
      refine renumRx_k0 env tp nr _ _ fun j hj hz => hn ⟨h4, j, ?_, ?_⟩
      · have := List.mem_range.1 hj; rw [hrows, a1.2.1] at this; exact this
      · rw [hrows, a1.1] at hz; exact hz
    · exact htx

/-- a number change of a row without -/
theorem changeNr_data0 (env : Env) (hhw : ∀ k, env.hwOk k = true) (h0 : 0 < env.nObj) (n : Node) (u : n.hw.used 0 = true)
    (typ : List Byte) (nr act i : Nat) (hf : n.findTypeNr env typ act = some i) (h4 : (n.rows i).txObj ≤ 4)
    (hu : Unplaced n i) : Data0 (changeNr env n typ nr act).1 := by
  have him : i < env.maxMod := List.mem_range.1 (List.mem_of_find?_eq_some hf)
  unfold changeNr
  rw [hf]
  dsimp only
  have k0 := K0.setRow n i (fun r => { r with nr := nr }) (fun _ => rfl) (fun _ => rfl) (fun _ => rfl)
  have a1 : ((n.setRow i fun r => { r with nr := nr }).rows i).rxMsgObj = (n.rows i).rxMsgObj ∧
      ((n.setRow i fun r => { r with nr := nr }).rows i).rxObj = (n.rows i).rxObj ∧
      ((n.setRow i fun r => { r with nr := nr }).rows i).txObj = (n.rows i).txObj := by simp [Node.setRow]
  generalize (n.setRow i fun r => { r with nr := nr }) = n1 at a1 k0
  have k1 := renumTx_k0 env n1 i nr
  have e := renumTx_eq env n1 i nr him (by rw [a1.2.2]; exact h4)
  have hr2 : (renumTx env n1 i nr).1.rows = n1.rows := by rw [e]
  have hok2 : (renumTx env n1 i nr).2 = E.ok := by rw [e]
  generalize renumTx env n1 i nr = q at k1 hr2 hok2
  rw [thenOk, if_pos hok2]
  have hd : (renumRx env q.1 i nr).2 = E.ok ∧ Data0 (renumRx env q.1 i nr).1 := by
    refine renumRx_data0 env hhw h0 i nr (List.range (q.1.rows i).rxObj) q.1 (.inr ?_)
    obtain ⟨j, hj, hz⟩ := hu
    refine ⟨j, ?_, ?_⟩
    · rw [hr2, a1.2.1]; exact List.mem_range.2 hj
    · rw [hr2, a1.1]; exact hz
  have hu2 : (renumRx env q.1 i nr).1.hw.used 0 = true := by
    have : ∀ (l : List Nat) (x : Node), x.hw.used 0 = true → (forErr (fun k n => define env n ((n.rows i).rxMsgObj k)
        ⟨syncRxId nr k, 0x7FF#16, (n.rows i).rxDlc k, .rx true⟩) l x).1.hw.used 0 = true := by
      intro l
      induction l with
      | nil => exact fun _ h => h
      | cons k l ih =>
        intro x hx
        have : (define env x ((x.rows i).rxMsgObj k) ⟨syncRxId nr k, 0x7FF#16, (x.rows i).rxDlc k, .rx true⟩).1.hw.used 0 = true := by
          by_cases hb : (x.rows i).rxMsgObj k < env.nObj
          · exact define_used _ _ _ _ _ hb hx
          · unfold define; rw [if_pos (Nat.le_of_not_lt hb)]; exact hx
        unfold forErr thenOk; split
        · exact ih _ this
        · exact this
    exact this _ _ (k1.used (k0.used u))
  generalize renumRx env q.1 i nr = q2 at hd hu2
  rw [thenOk, if_pos hd.1]
  obtain ⟨d, h1, h2⟩ := hd.2
  exact ⟨d, ((finish_k0 ..).defs hu2).trans h1, h2⟩

/-- message object 0 alone -/
structure D0 (n n' : Node) : Prop where
  used : n.hw.used 0 = true → n'.hw.used 0 = true
  defs : n.hw.used 0 = true → n'.hw.defs 0 = n.hw.defs 0

theorem D0.refl (n : Node) : D0 n n := ⟨id, fun _ => rfl⟩

theorem D0.trans {a b c : Node} (h : D0 a b) (g : D0 b c) : D0 a c :=
  ⟨fun u => g.used (h.used u), fun u => (g.defs (h.used u)).trans (h.defs u)⟩

theorem D0.of {n n' : Node} (h : n'.hw = n.hw) : D0 n n' := ⟨fun u => by rw [h]; exact u, fun _ => by rw [h]⟩

theorem K0.d0 {n n' : Node} (h : K0 n n') : D0 n n' := ⟨h.used, h.defs⟩

theorem retx_hw0 (env : Env) : ∀ (l : List Nat) (r : Node × Err), (retx env l r).1.hw = r.1.hw
  | [], r => rfl
  | j :: l, r => by
    have inner : ∀ (l : List Nat) (r : Node × Err), (l.foldl (fun r i => txCnfg env r.1 j i (r.1.rows j).nr) r).1.hw = r.1.hw := by
      intro l
      induction l with
      | nil => exact fun r => rfl
      | cons i l ih => intro r; rw [List.foldl_cons, ih]; exact Slave.txCnfg_hw ..
    unfold retx; split
    · rw [retx_hw0 env l, inner]
    · exact retx_hw0 env l r

theorem retx_rows0 (env : Env) : ∀ (l : List Nat) (r : Node × Err), (retx env l r).1.rows = r.1.rows ∧ (retx env l r).1.chg = r.1.chg
  | [], r => ⟨rfl, rfl⟩
  | j :: l, r => by
    have inner : ∀ (l : List Nat) (r : Node × Err), (l.foldl (fun r i => txCnfg env r.1 j i (r.1.rows j).nr) r).1.rows = r.1.rows ∧
        (l.foldl (fun r i => txCnfg env r.1 j i (r.1.rows j).nr) r).1.chg = r.1.chg := by
      intro l
      induction l with
      | nil => exact fun r => ⟨rfl, rfl⟩
      | cons i l ih =>
        intro r; rw [List.foldl_cons]
        exact ⟨(ih _).1.trans (txCnfg_rows0 ..).1, (ih _).2.trans (txCnfg_rows0 ..).2⟩
    unfold retx; split
    · exact ⟨(retx_rows0 env l _).1.trans (inner _ _).1, (retx_rows0 env l _).2.trans (inner _ _).2⟩
    · exact retx_rows0 env l r

theorem changeType_d0 (env : Env) (n : Node) (tp : Nat) (typ : List Byte) : D0 n (changeType env n tp typ).1 := by
  unfold changeType
  split
  · exact .refl n
  · split
    · dsimp only
      split
      · exact .of ((retx_hw0 ..).trans rfl)
      · exact .of ((retx_hw0 ..).trans rfl)
    · exact .refl n

theorem setModule_d0 (env : Env) (n : Node) (tp : Nat) (tpl : Row) (nr : Nat) (rx tx : Nat → Nat) :
    D0 n (setModule env n tp tpl nr rx tx).1 :=
  D0.trans (b := n.fillRow tp tpl (effNr tp nr) rx tx) (.of rfl) (setModule_k0 ..).d0

/-- the row a change of the number concerns, as the model finds it -/
theorem target_eq (env : Env) (n : Node) (typ : List Byte) (act : Nat) :
    n.findTypeNr env typ act = (List.range env.maxMod).find? fun i => (n.rows i).typ = typ ∧ (n.rows i).nr = act := rfl

/-- calls which do not change the number of an incompletely set up module -/
theorem step_d0 (env : Env) (n : Node) (o : Op) (h : ¬ Misplaces env n o) : D0 n (n.step env o).1 := by
  cases o with
  | add tpl nr rx tx =>
    simp only [Node.step, addModule]
    split
    · exact .refl n
    · split <;> exact (setModule_d0 ..).trans (.of (report_sameHw env _ _).hw)
  | silentAwake tp st => exact .of (setSilentAwake_sameHw ..).hw
  | silentAwakeBy typ nr st => exact .of (setSilentAwakeBy_sameHw ..).hw
  | setActive typ => exact .of (setActive_sameHw ..).hw
  | setCritical typ => exact .of (setCritical_sameHw ..).hw
  | process => exact .of (process_sameHw ..).hw
  | changeNr typ nr act =>
    exact (changeNr_k0 env n typ nr act fun i hi hu => h ⟨i, hi, hu.1, hu.2⟩).d0
  | changeModuleNr tp nr =>
    have key : (∀ i, n.findTypeNr env (n.rows tp).typ (n.rows tp).nr = some i → ¬ ((n.rows i).txObj ≤ 4 ∧ Unplaced n i)) →
        K0 n (changeNr env n (n.rows tp).typ nr (n.rows tp).nr).1 := changeNr_k0 env n _ nr _
    simp only [Node.step, changeModuleNr]
    split
    · next e => exact (key fun i hi hu => h ⟨i, by simp only [numberTarget, e]; exact hi, hu.1, hu.2⟩).d0
    · next v e =>
      split
      · next e2 =>
        have hk := key fun i hi hu => h ⟨i, by simp only [numberTarget, e, e2]; exact hi, hu.1, hu.2⟩
        exact (hk.thenOk fun x => .same (setSilentAwake_sameHw ..)).d0
      · next e2 =>
        have hk := key fun i hi hu => h ⟨i, by simp only [numberTarget, e, e2]; exact hi, hu.1, hu.2⟩
        exact (hk.thenOk fun x => .same (setSilentAwake_sameHw ..)).d0
      · exact .refl n
  | changeTypeAdd typ tpl rx tx cb =>
    simp only [Node.step, changeTypeAdd]; split
    · exact .of rfl
    · exact .refl n
  | changeType tp typ => exact changeType_d0 ..

/-- calls which do -/
theorem step_data0 (env : Env) (hhw : ∀ k, env.hwOk k = true) (h0 : 0 < env.nObj) (n : Node) (u : n.hw.used 0 = true) (o : Op)
    (h : Misplaces env n o) : Data0 (n.step env o).1 := by
  obtain ⟨i, hi, h4, hu⟩ := h
  have andThen : ∀ (q : Node × Err) (f : Node → Node × Err), Data0 q.1 → (∀ x, SameHw x (f x).1) → Data0 (thenOk q f).1 := by
    intro q f hq hf
    unfold thenOk; split
    · obtain ⟨d, h1, h2⟩ := hq
      exact ⟨d, by rw [(hf q.1).hw]; exact h1, h2⟩
    · exact hq
  cases o with
  | changeNr typ nr act => exact changeNr_data0 env hhw h0 n u typ nr act i hi h4 hu
  | changeModuleNr tp nr =>
    have key : n.findTypeNr env (n.rows tp).typ (n.rows tp).nr = some i → Data0 (changeNr env n (n.rows tp).typ nr (n.rows tp).nr).1 :=
      fun hi => changeNr_data0 env hhw h0 n u _ nr _ i hi h4 hu
    simp only [Node.step, changeModuleNr]
    simp only [numberTarget] at hi
    split at hi
    · next e => rw [e]; exact key hi
    · next v e =>
      rw [e]; dsimp only
      split at hi
      · next e2 => rw [e2]; exact andThen _ _ (key hi) fun x => setSilentAwake_sameHw ..
      · next e2 => rw [e2]; exact andThen _ _ (key hi) fun x => setSilentAwake_sameHw ..
      · exact nomatch hi
  | _ => exact nomatch hi

/-- message object 0 stays in use -/
structure U0 (n n' : Node) : Prop where
  used : n.hw.used 0 = true → n'.hw.used 0 = true

theorem K0.u0 {n n' : Node} (h : K0 n n') : U0 n n' := ⟨h.used⟩

theorem U0.trans {a b c : Node} (h : U0 a b) (g : U0 b c) : U0 a c := ⟨fun u => g.used (h.used u)⟩

theorem U0.thenOk {n : Node} {r : Node × Err} {f : Node → Node × Err} (h : U0 n r.1) (hf : ∀ x, U0 x (f x).1) :
    U0 n (Node.thenOk r f).1 := by
  unfold Node.thenOk; split
  · exact h.trans (hf _)
  · exact h

theorem U0.forErr {f : Nat → Node → Node × Err} (hf : ∀ i x, U0 x (f i x).1) :
    ∀ (l : List Nat) (n : Node), U0 n (Node.forErr f l n).1
  | [], n => ⟨id⟩
  | i :: l, n => by unfold Node.forErr; exact (hf i n).thenOk fun x => U0.forErr hf l x

theorem define_u0 (env : Env) (n : Node) (o : Nat) (d : ObjDef) : U0 n (define env n o d).1 := by
  refine ⟨fun u => ?_⟩
  by_cases hb : o < env.nObj
  · exact define_used _ _ _ _ _ hb u
  · unfold define; rw [if_pos (Nat.le_of_not_lt hb)]; exact u

theorem changeNr_u0 (env : Env) (n : Node) (typ : List Byte) (nr act : Nat) : U0 n (changeNr env n typ nr act).1 := by
  unfold changeNr
  split
  · exact ⟨id⟩
  · dsimp only
    refine U0.thenOk (U0.trans (b := _) ?_ (renumTx_k0 ..).u0) fun x => U0.thenOk (U0.forErr (fun i x => define_u0 ..) _ _) fun x =>
      (finish_k0 ..).u0
    exact ⟨id⟩

theorem step_used0 (env : Env) (n : Node) (o : Op) (u : n.hw.used 0 = true) : (n.step env o).1.hw.used 0 = true := by
  by_cases h : Misplaces env n o
  · have key : ∀ typ nr act, U0 n (changeNr env n typ nr act).1 := changeNr_u0 env n
    obtain ⟨i, hi, _⟩ := h
    cases o with
    | changeNr typ nr act => exact (key ..).used u
    | changeModuleNr tp nr =>
      simp only [Node.step, changeModuleNr]
      split
      · exact (key ..).used u
      · split
        · exact ((key ..).thenOk fun x => (K0.same (setSilentAwake_sameHw ..)).u0).used u
        · exact ((key ..).thenOk fun x => (K0.same (setSilentAwake_sameHw ..)).u0).used u
        · exact u
    | _ => exact nomatch hi
  · exact (step_d0 env n o h).used u

/-- the number changes of a history which concern an incompletely set up module -/
theorem run_d0 (env : Env) (hhw : ∀ k, env.hwOk k = true) (h0 : 0 < env.nObj) : ∀ (ops : List Op) (n : Node), n.hw.used 0 = true →
    (Node.run env n ops).hw.used 0 = true ∧
    ((∃ pre o post, ops = pre ++ o :: post ∧ Misplaces env (Node.run env n pre) o) ∧ Data0 (Node.run env n ops) ∨
      (¬ ∃ pre o post, ops = pre ++ o :: post ∧ Misplaces env (Node.run env n pre) o) ∧ D0 n (Node.run env n ops))
  | [], n, u => ⟨u, .inr ⟨fun ⟨pre, o, post, e, _⟩ => by simp at e, .refl n⟩⟩
  | o :: ops, n, u => by
    have hused := step_used0 env n o u
    obtain ⟨u', ih⟩ := run_d0 env hhw h0 ops (n.step env o).1 hused
    refine ⟨u', ?_⟩
    by_cases h : Misplaces env n o
    · refine .inl ⟨⟨[], o, ops, rfl, h⟩, ?_⟩
      rcases ih with ⟨_, hd⟩ | ⟨_, hd⟩
      · exact hd
      · obtain ⟨d, h1, h2⟩ := step_data0 env hhw h0 n u o h
        exact ⟨d, (hd.defs hused).trans h1, h2⟩
    · rcases ih with ⟨⟨pre, o', post, e, hm⟩, hd⟩ | ⟨hn, hd⟩
      · exact .inl ⟨⟨o :: pre, o', post, by rw [e]; rfl, hm⟩, hd⟩
      · refine .inr ⟨?_, (step_d0 env n o h).trans hd⟩
        rintro ⟨pre, o', post, e, hm⟩
        cases pre with
        | nil =>
          simp only [List.nil_append, List.cons.injEq] at e
          obtain ⟨rfl, rfl⟩ := e
          exact h hm
        | cons x pre =>
          simp only [List.cons_append, List.cons.injEq] at e
          obtain ⟨rfl, e⟩ := e
          exact hn ⟨pre, o', post, e, hm⟩

end Node
end LiCan
