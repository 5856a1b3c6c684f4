import Verif.Lemmas.ReqObj
/-! # The message object for process requests in the whole stack -/
namespace LiCan
open Spec Node
namespace Node

/-- the definition made by `lcsa_init` -/
def requestDef : ObjDef := ⟨0x001, 0x7FF#16, 1, .rx false⟩

/-- Message object 0 takes process requests; every receive object has a message object, also those of an announced type. -/
structure Req0 (n : Node) : Prop where
  used : n.hw.used 0 = true
  defs : n.hw.defs 0 = some requestDef
  placed : ∀ t j, j < (n.rows t).rxObj → (n.rows t).rxMsgObj j ≠ 0
  free : ∀ t, (n.rows t).typ = [] → n.chg t = none
  chg : ∀ t c, n.chg t = some c → c.row.typ ≠ [] ∧ ∀ j < c.row.rxObj, (n.rows t).rxMsgObj j ≠ 0

theorem Req0.keep {n n' : Node} (h : Req0 n) (k : K0 n n') : Req0 n' :=
  ⟨k.used h.used, (k.defs h.used).trans h.defs, fun t j hj => k.msg h.used t j (h.placed t j (by rw [← k.cnt]; exact hj)),
   fun t ht => by rw [k.chg]; exact h.free t (by rw [← k.typ]; exact ht),
   fun t c hc => by
    rw [k.chg] at hc
    exact ⟨(h.chg t c hc).1, fun j hj => k.msg h.used t j ((h.chg t c hc).2 j hj)⟩⟩

theorem setRx1_placed (env : Env) (tp nr i : Nat) (n : Node) (u : n.hw.used 0 = true) (hok : (setRx1 env tp nr i n).2 = E.ok) :
    ((setRx1 env tp nr i n).1.rows tp).rxMsgObj i ≠ 0 := by
  revert hok
  unfold setRx1
  dsimp only
  have hu : (n.setRow tp fun r => { r with rxDlcSync := upd r.rxDlcSync i (r.rxDlc i) }).hw.used 0 = true := u
  generalize (n.setRow tp fun r => { r with rxDlcSync := upd r.rxDlcSync i (r.rxDlc i) }) = n1 at hu
  split
  · intro h; simp at h
  · next o ho =>
    intro _
    have h1 : ((n1.setRow tp fun r => { r with rxMsgObj := upd r.rxMsgObj i o }).rows tp).rxMsgObj i ≠ 0 := by
      simp only [Node.setRow, upd_same]; exact free_ne0 ho hu
    have hu2 : (n1.setRow tp fun r => { r with rxMsgObj := upd r.rxMsgObj i o }).hw.used 0 = true := hu
    refine (K0.thenOk (define_k0 env _ o _ fun u => free_ne0 ho hu) fun x => addSlot_k0 ..).msg hu2 tp i h1

theorem setRx_placed (env : Env) (tp nr : Nat) : ∀ (k : Nat) (n : Node), n.hw.used 0 = true →
    (forErr (setRx1 env tp nr) (List.range k) n).2 = E.ok →
    ∀ j < k, ((forErr (setRx1 env tp nr) (List.range k) n).1.rows tp).rxMsgObj j ≠ 0
  | 0, _, _, _, _, hj => absurd hj (by omega)
  | k + 1, n, u, hok, j, hj => by
    rw [forErr_range_succ] at hok ⊢
    have ih := setRx_placed env tp nr k n u
    have hk := K0.forErr (fun i x => setRx1_k0 env tp nr i x) (List.range k) n
    generalize forErr (setRx1 env tp nr) (List.range k) n = q at *
    unfold thenOk at hok ⊢
    by_cases hq : q.2 = E.ok
    · rw [if_pos hq] at hok ⊢
      by_cases e : j = k
      · subst e; exact setRx1_placed env tp nr j q.1 (hk.used u) hok
      · exact (setRx1_k0 ..).msg (hk.used u) tp j (ih hq j (by omega))
    · rw [if_neg hq] at hok; exact absurd hok hq

theorem thenOk_inv {q : Node × Err} {f : Node → Node × Err} (h : (thenOk q f).2 = E.ok) : q.2 = E.ok ∧ thenOk q f = f q.1 := by
  unfold thenOk at h ⊢
  split at h
  · next e => exact ⟨e, by rw [if_pos e]⟩
  · next e => exact absurd h e

/-- a registration that went through -/
theorem setModule_placed (env : Env) (n : Node) (tp : Nat) (tpl : Row) (nr : Nat) (rx tx : Nat → Nat) (u : n.hw.used 0 = true)
    (hok : (setModule env n tp tpl nr rx tx).2 = E.ok) :
    ∀ j < tpl.rxObj, ((setModule env n tp tpl nr rx tx).1.rows tp).rxMsgObj j ≠ 0 := by
  intro j hj
  revert hok
  unfold setModule
  dsimp only
  have h1 : K0 (n.fillRow tp tpl (effNr tp nr) rx tx) (setTx env (n.fillRow tp tpl (effNr tp nr) rx tx) tp (effNr tp nr)).1 := by
    refine K0.forErr (fun i x => ?_) _ _
    refine K0.trans ?_ (txCnfg_k0 ..)
    exact K0.setRow x tp (fun r => { r with txDlcSync := upd r.txDlcSync i (r.txDlc i) }) (fun _ => rfl) (fun _ => rfl) (fun _ => rfl)
  have h2 : ((n.fillRow tp tpl (effNr tp nr) rx tx).rows tp).rxObj = tpl.rxObj := by simp [fillRow, Node.setRow]
  have h3 : (n.fillRow tp tpl (effNr tp nr) rx tx).hw.used 0 = true := u
  generalize n.fillRow tp tpl (effNr tp nr) rx tx = m at h1 h2 h3
  generalize setTx env m tp (effNr tp nr) = q at *
  intro hok
  obtain ⟨hq2, e2⟩ := thenOk_inv hok
  rw [e2] at hok ⊢
  obtain ⟨hrx, e3⟩ := thenOk_inv hok
  rw [e3]
  have hq := h1.used h3
  have hc : (q.1.rows tp).rxObj = tpl.rxObj := (h1.cnt tp).trans h2
  have hp : ((setRx env q.1 tp (effNr tp nr)).1.rows tp).rxMsgObj j ≠ 0 := by
    unfold setRx at hrx ⊢
    dsimp only at hrx ⊢
    have e : ((q.1.setRow tp fun r => { r with rxObjSync := r.rxObj }).rows tp).rxObj = tpl.rxObj := by
      rw [← hc]; simp [Node.setRow]
    rw [e] at hrx ⊢
    have hq' : (q.1.setRow tp fun r => { r with rxObjSync := r.rxObj }).hw.used 0 = true := hq
    generalize (q.1.setRow tp fun r => { r with rxObjSync := r.rxObj }) = m2 at *
    exact setRx_placed env tp (effNr tp nr) tpl.rxObj m2 hq' hrx j hj
  have hu : (setRx env q.1 tp (effNr tp nr)).1.hw.used 0 = true := by
    unfold setRx
    exact (K0.forErr (fun i x => setRx1_k0 ..) _ _).used hq
  clear hok e2 e3
  generalize setRx env q.1 tp (effNr tp nr) = r at *
  have hf := (finish_k0 env r.1 tp r.1.nrMod (effNr tp nr) ((List.range (tp + 1)).map fun i => (r.1.rows i).nr)).msg hu tp j hp
  generalize finish env r.1 tp r.1.nrMod (effNr tp nr) ((List.range (tp + 1)).map fun i => (r.1.rows i).nr) = z at *
  exact hf

/-- what the application keeps to: complete registrations, and announced types without additional receive objects -/
def Sound (env : Env) (n : Node) : Op → Prop
  | .add tpl nr rx tx => tpl.typ ≠ [] ∧ n.regErr env tpl nr rx tx = E.ok
  | .changeTypeAdd typ tpl _ _ _ => typ ≠ [] ∧ tpl.typ ≠ [] ∧ ∀ tp, n.findType env typ = some tp → tpl.rxObj ≤ (n.rows tp).rxObj
  | _ => True

theorem Req0.setModule {env : Env} {n : Node} (h : Req0 n) (tp : Nat) (hf : (n.rows tp).typ = []) (tpl : Row) (ht : tpl.typ ≠ [])
    (nr : Nat) (rx tx : Nat → Nat) (hok : (Node.setModule env n tp tpl nr rx tx).2 = E.ok) : Req0 (Node.setModule env n tp tpl nr rx tx).1 := by
  have k := setModule_k0 env n tp tpl nr rx tx
  have hp := setModule_placed env n tp tpl nr rx tx h.used hok
  have hu : (n.fillRow tp tpl (effNr tp nr) rx tx).hw.used 0 = true := h.used
  have hd : (n.fillRow tp tpl (effNr tp nr) rx tx).hw.defs 0 = some requestDef := h.defs
  have hs : ((n.fillRow tp tpl (effNr tp nr) rx tx).rows tp).rxObj = tpl.rxObj := by simp [fillRow, Node.setRow]
  have hst : ((n.fillRow tp tpl (effNr tp nr) rx tx).rows tp).typ = tpl.typ := by simp [fillRow, Node.setRow]
  have ho : ∀ t, t ≠ tp → (n.fillRow tp tpl (effNr tp nr) rx tx).rows t = n.rows t := by
    intro t ht; simp [fillRow, Node.setRow, upd, ht]
  have hc : (n.fillRow tp tpl (effNr tp nr) rx tx).chg = n.chg := rfl
  generalize Node.setModule env n tp tpl nr rx tx = q at *
  generalize n.fillRow tp tpl (effNr tp nr) rx tx = m at *
  refine ⟨k.used hu, (k.defs hu).trans hd, fun t j hj => ?_, fun t e => ?_, fun t c e => ?_⟩
  · rw [k.cnt] at hj
    by_cases e : t = tp
    · subst e; rw [hs] at hj; exact hp j hj
    · rw [ho t e] at hj
      refine k.msg hu t j ?_
      rw [ho t e]; exact h.placed t j hj
  · rw [k.typ] at e
    rw [k.chg, hc]
    by_cases e' : t = tp
    · subst e'; exact h.free _ hf
    · rw [ho t e'] at e; exact h.free t e
  · rw [k.chg, hc] at e
    by_cases e' : t = tp
    · subst e'; rw [h.free _ hf] at e; exact nomatch e
    · refine ⟨(h.chg t c e).1, fun j hj => k.msg hu t j ?_⟩
      rw [ho t e']; exact (h.chg t c e).2 j hj

theorem Req0.changeType {env : Env} {n : Node} (h : Req0 n) (tp : Nat) (typ : List Byte) : Req0 (changeType env n tp typ).1 := by
  unfold Node.changeType
  split
  · exact h
  · next c hc =>
    obtain ⟨ht, hj⟩ := h.chg tp c hc
    split
    · dsimp only
      have key : ∀ m : Node, m.hw = n.hw → m.chg = n.chg → (∀ t, t ≠ tp → m.rows t = n.rows t) →
          (m.rows tp).rxObj = c.row.rxObj → (m.rows tp).rxMsgObj = (n.rows tp).rxMsgObj → (m.rows tp).typ = c.row.typ → Req0 m := by
        intro m e1 e2 e3 e4 e5 e6
        refine ⟨by rw [e1]; exact h.used, by rw [e1]; exact h.defs, fun t j k => ?_, fun t e => ?_, fun t c' e => ?_⟩
        · by_cases et : t = tp
          · subst et; rw [e5]; rw [e4] at k; exact hj j k
          · rw [e3 t et] at k ⊢; exact h.placed t j k
        · rw [e2]
          by_cases et : t = tp
          · subst et; rw [e6] at e; exact absurd e ht
          · rw [e3 t et] at e; exact h.free t e
        · rw [e2] at e
          refine ⟨(h.chg t c' e).1, fun j k => ?_⟩
          have := (h.chg t c' e).2 j k
          by_cases et : t = tp
          · subst et; rw [e5]; exact this
          · rw [e3 t et]; exact this
      have fin : ∀ (m : Node) (l : List Nat), m.hw = n.hw → m.chg = n.chg → (∀ t, t ≠ tp → m.rows t = n.rows t) →
          (m.rows tp).rxObj = c.row.rxObj → (m.rows tp).rxMsgObj = (n.rows tp).rxMsgObj → (m.rows tp).typ = c.row.typ →
          Req0 (retx env l (m, E.ok)).1 := by
        intro m l e1 e2 e3 e4 e5 e6
        have a := retx_hw0 env l (m, E.ok)
        have b := retx_rows0 env l (m, E.ok)
        dsimp only at a b
        exact key _ (a.trans e1) (b.2.trans e2) (fun t ht => by rw [b.1]; exact e3 t ht) (by rw [b.1]; exact e4)
          (by rw [b.1]; exact e5) (by rw [b.1]; exact e6)
      generalize hq : retx env (List.range _) (_, E.ok) = q
      have hr : Req0 q.1 := by
        rw [← hq]
        exact fin _ _ rfl rfl (fun t ht => by simp [Node.setRow, upd, ht]) (by simp [Node.setRow]) (by simp [Node.setRow])
          (by simp [Node.setRow])
      split
      · exact hr.keep (.rows rfl rfl rfl)
      · exact hr
    · exact h

theorem Req0.step {env : Env} {n : Node} (h : Req0 n) (o : Op) (hs : Sound env n o) : Req0 (n.step env o).1 := by
  have nr : ∀ typ nr act, K0 n (changeNr env n typ nr act).1 := fun typ nr act =>
    changeNr_k0 env n typ nr act fun i _ hu => by
      obtain ⟨j, hj, hz⟩ := hu.2
      exact h.placed i j hj hz
  cases o with
  | add tpl nr' rx tx =>
    obtain ⟨ht, hr⟩ := hs
    simp only [Node.step, addModule]
    unfold regErr at hr
    split
    · exact h
    · next i hi =>
      rw [hi] at hr
      dsimp only at hr
      have hf : (n.rows i).typ = [] := by simpa using List.find?_some hi
      split
      · next hd =>
        rw [if_pos hd] at hr
        exact (h.setModule i hf tpl ht _ rx tx hr).keep (.same (report_sameHw ..))
      · next hd =>
        rw [if_neg hd] at hr
        exact (h.setModule i hf tpl ht _ rx tx hr).keep (.same (report_sameHw ..))
  | silentAwake tp st => exact h.keep (.same (setSilentAwake_sameHw ..))
  | silentAwakeBy typ nr st => exact h.keep (.same (setSilentAwakeBy_sameHw ..))
  | setActive typ => exact h.keep (.same (setActive_sameHw ..))
  | setCritical typ => exact h.keep (.same (setCritical_sameHw ..))
  | process => exact h.keep (.same (process_sameHw ..))
  | changeNr typ nr' act => exact h.keep (nr ..)
  | changeModuleNr tp nr' =>
    simp only [Node.step, changeModuleNr]
    split
    · exact h.keep (nr ..)
    · split
      · exact h.keep ((nr ..).thenOk fun x => .same (setSilentAwake_sameHw ..))
      · exact h.keep ((nr ..).thenOk fun x => .same (setSilentAwake_sameHw ..))
      · exact h
  | changeTypeAdd typ tpl rx tx cb =>
    obtain ⟨h1, h2, h3⟩ := hs
    simp only [Node.step, changeTypeAdd]
    split
    · next tp hf =>
      refine ⟨h.used, h.defs, h.placed, fun t e => ?_, fun t c e => ?_⟩
      · by_cases et : t = tp
        · have : (n.rows tp).typ = typ := by simpa using List.find?_some hf
          rw [et] at e
          exact absurd (this.symm.trans e) h1
        · show upd _ _ _ _ = _
          rw [upd_other _ _ et]; exact h.free t e
      · by_cases et : t = tp
        · rw [et] at e
          rw [← Option.some.inj ((upd_same _ _ _).symm.trans e)]
          exact ⟨h2, fun j hj => h.placed t j (Nat.lt_of_lt_of_le hj (by rw [et]; exact h3 tp hf))⟩
        · have e : n.chg t = some c := by rw [← e]; exact (upd_other _ _ et).symm
          exact h.chg t c e
    · exact h
  | changeType tp typ => exact h.changeType tp typ

/-- `lcsa_init` -/
theorem init_req0 (env : Env) (hhw : ∀ k, env.hwOk k = true) (h10 : 10 < env.nObj) (n : Node)
    (hp : ∀ t j, j < (n.rows t).rxObj → (n.rows t).rxMsgObj j ≠ 0) (hc : ∀ t, n.chg t = none) : Req0 (init env n).1 := by
  unfold Node.init
  dsimp only
  generalize hm : ({ n with
    nrMod := 0
    rows := fun i => if i < env.maxMod then { n.rows i with typ := [] } else n.rows i
    hw := { n.hw with
      used := fun i => if i < env.nObj then false else n.hw.used i
      defs := fun i => if i < env.nObj then none else n.hw.defs i } } : Node) = m
  have hm1 : ∀ t j, j < (m.rows t).rxObj → (m.rows t).rxMsgObj j ≠ 0 := by
    intro t j; rw [← hm]; dsimp only
    split <;> exact hp t j
  have hm2 : ∀ t, m.chg t = none := by intro t; rw [← hm]; exact hc t
  have h1 : Req0 (define env m 0 ⟨0x001, 0x7FF#16, 1, .rx false⟩).1 := by
    rcases define_cases env m 0 ⟨0x001, 0x7FF#16, 1, .rx false⟩ (by omega) with ⟨_, e⟩ | ⟨k, e⟩
    · rw [e]
      refine ⟨by simp [upd], by simp [upd, requestDef], hm1, fun t _ => hm2 t, fun t c e => ?_⟩
      rw [show m.chg t = none from hm2 t] at e; exact nomatch e
    · rw [hhw] at k; exact nomatch k
  refine h1.keep ?_
  generalize define env m 0 ⟨0x001, 0x7FF#16, 1, .rx false⟩ = q
  refine K0.thenOk (K0.thenOk (K0.thenOk (K0.thenOk (.refl _) fun x => define_k0 _ _ _ _ fun _ => by decide) fun x => ?_)
    fun x => define_k0 _ _ _ _ fun _ => by decide) fun x => define_k0 _ _ _ _ fun _ => by decide
  split
  · exact define_k0 _ _ _ _ fun _ => by decide
  · exact .refl x

theorem Req0.nstep {env : Env} {P : Node → In → Prop} (hi : ∀ n b, ¬ P n (.init b)) (ht : ∀ n o, P n (.table o) → Sound env n o)
    {n n' : Node} (h : NStep env P n n') (r : Req0 n) : Req0 n' := by
  cases h with
  | plain h => obtain ⟨l, k, q, rfl⟩ := h; exact r.keep (.rows rfl rfl rfl)
  | recv hi hm hs =>
    refine r.keep ?_
    unfold callRx
    split <;> exact .rows rfl rfl rfl
  | send h =>
    refine r.keep (.same ?_)
    have := process_sameHw env n
    rw [h] at this; exact this
  | cmd o h =>
    refine r.step o ?_
    cases h <;> trivial
  | table o hp => exact r.step o (ht _ _ hp)
  | init hp => exact absurd hp (hi _ _)
  | tunnel nr => exact r.keep (define_k0 _ _ _ _ fun _ => by decide)

end Node
theorem Slave.init_node0 (env : Env) (s : Slave) (b : Nat) : (s.init env b).1.node = (s.node.init env).1 := by
  unfold Slave.init
  generalize s.node.init env = r
  dsimp only
  split <;> rfl

namespace Stack

theorem setSlv_node0 (env : AEnv) (s : Stack) (v : Slave) : (s.setSlv env v).nodeOf = v.node := rfl

/-- `lcsa_init` of the whole stack: only the module table is set up anew -/
theorem init_node0 (env : AEnv) (s : Stack) (b : Nat) : ∃ x, Plain s.nodeOf x ∧ Plain (x.init env.toEnv).1 (s.init env b).1.nodeOf := by
  have key : ∀ (s1 : Stack) (b : Nat), Plain s.nodeOf s1.nodeOf →
      ∃ x, Plain s.nodeOf x ∧ Plain (x.init env.toEnv).1 (s1.setSlv env (s1.slv.init env.toEnv b).1).nodeOf := by
    intro s1 b h
    refine ⟨s1.nodeOf, h, ?_⟩
    rw [setSlv_node0, Slave.init_node0]
    exact .refl _
  unfold Stack.init
  refine key _ _ ?_
  have h3 : ∀ s1 : Stack, Plain s.nodeOf s1.nodeOf → ∀ p : Prop, ∀ [Decidable p],
      Plain s.nodeOf (if p then { s1 with lcsa := .download } else s1).nodeOf := by
    intro s1 h p _
    split
    · exact h
    · exact h
  refine h3 _ ?_ _
  split
  · exact ⟨_, _, _, rfl⟩
  · exact .refl _

/-- what the application keeps to, see `Node.Sound`; `lcsa_init` only while no type change is announced -/
def SoundIn (env : AEnv) (s : Stack) : SIn → Prop
  | .init _ => ∀ t, s.slv.node.chg t = none
  | .api (.table o) => Sound env.toEnv s.slv.node o
  | _ => True

/-- at every input of the history -/
def AllSound (env : AEnv) : Stack → List SIn → Prop
  | _, [] => True
  | s, i :: is => SoundIn env s i ∧ ∀ s', step env s i = some s' → AllSound env s' is

theorem init_req (env : AEnv) (hhw : ∀ k, env.hwOk k = true) (h10 : 10 < env.nObj) (s : Stack) (b : Nat)
    (hp : ∀ t j, j < (s.slv.node.rows t).rxObj → (s.slv.node.rows t).rxMsgObj j ≠ 0) (hc : ∀ t, s.slv.node.chg t = none) :
    Req0 (s.init env b).1.slv.node := by
  obtain ⟨x, h1, h2⟩ := init_node0 env s b
  obtain ⟨l, k, q, e⟩ := h1
  have hx : Req0 (x.init env.toEnv).1 := by
    rw [e]; exact init_req0 env.toEnv hhw h10 _ hp hc
  generalize (x.init env.toEnv).1 = y at *
  obtain ⟨l, k, q, e⟩ := h2
  have e : (s.init env b).1.slv.node = _ := e
  rw [e]
  exact hx.keep (.rows rfl rfl rfl)

theorem step_req {env : AEnv} (hhw : ∀ k, env.hwOk k = true) (h10 : 10 < env.nObj) {s s' : Stack} {i : SIn}
    (h : s.step env i = some s') (hs : SoundIn env s i) (r : Req0 s.slv.node) : Req0 s'.slv.node := by
  by_cases hi : ∃ b, i = .init b
  · obtain ⟨b, rfl⟩ := hi
    have h : some (s.init env b).1 = some s' := h
    rw [← Option.some.inj h]
    exact init_req env hhw h10 s b r.placed hs
  · refine (step_trace h).keeps (fun g k => k.nstep ?_ ?_ g) r
    · intro n b hb
      cases i with
      | rx => exact nomatch hb.2
      | api j => obtain ⟨_, e, ha⟩ := hb; subst e; exact nomatch ha
      | init b => exact hi ⟨b, rfl⟩
      | _ => exact hb
    · intro n o hb
      cases i with
      | rx => exact nomatch hb.2
      | api j => obtain ⟨e1, e, ha⟩ := hb; subst e; subst e1; exact hs
      | init b => exact absurd ⟨b, rfl⟩ hi
      | _ => exact absurd hb id

theorem run_req {env : AEnv} (hhw : ∀ k, env.hwOk k = true) (h10 : 10 < env.nObj) : ∀ (is : List SIn) {s s' : Stack},
    AllSound env s is → run env s is = some s' → Req0 s.slv.node → Req0 s'.slv.node
  | [], s, s', _, h, r => by have h : some s = some s' := h; rw [← Option.some.inj h]; exact r
  | i :: is, s, s', ha, h, r => by
    unfold run at h
    obtain ⟨t, h1, h2⟩ := Option.bind_eq_some_iff.1 h
    exact run_req hhw h10 is (ha.2 t h1) h2 (step_req hhw h10 h1 ha.1 r)

end Stack
end LiCan
