import Verif.Lemmas.Cpu2Rig
/-! # The monitor CPU: the invariant over histories -/
namespace LiCan

/-- inputs of a monitor CPU in normal use: one initialisation, no type changes, no number 0 -/
def Spec.plainIn : Cpu2.CIn → Prop
  | .api (.init _) => False
  | .api (.table (.add _ _ _ _)) => False
  | .api (.table (.changeNr _ nr _)) => 1 ≤ nr ∧ nr ≤ 256
  | .api (.table (.changeModuleNr _ nr)) => 1 ≤ nr ∧ nr ≤ 256
  | .api (.table (.changeTypeAdd _ _ _ _ _)) => False
  | .api (.frame _ _ _ _ data) => data.getD 0 0 = 0x20 → data.getD 2 0 ≠ 0
  | .add tpl _ _ _ _ => tpl.typ ≠ [] ∧ tpl.txObj ≤ 4 ∧ tpl.rxObj ≤ 4
  | _ => True

namespace Cpu2
open Node Slave

/-- The error of a registration (it is only put into the error queue); `E.ok` for other inputs. -/
def regErr (env : Env) (c : Cpu2) : CIn → Err
  | .add tpl tx2 nr rx tx =>
    match (List.range env.maxMod).find? fun i => (c.s.node.rows i).typ = [] with
    | none => E.ok
    | some i =>
      if (List.range i).any fun j => (c.s.node.rows j).nr = nr then (c.setModule env i tpl tx2 (125 + i) rx tx).2
      else (c.setModule env i tpl tx2 nr rx tx).2
  | _ => E.ok

/-- a history of plain inputs in which every registration succeeds -/
def Fine (env : Env) : Cpu2 → List CIn → Prop
  | _, [] => True
  | c, i :: is => Spec.plainIn i ∧ regErr env c i = E.ok ∧ ∀ c', step env c i = some c' → Fine env c' is

/-- every row -/
abbrev All : Nat → Prop := fun _ => True

theorem Rig.light {env : Env} {S : Nat → Prop} {c c' : Cpu2} (h : Rig env S c) (l : Light c.s.node c'.s.node) (hx : c'.x = c.x) :
    Rig env S c' := h.keep l.hw l.slots l.rows l.chg hx

theorem calls_light {n n' : Node} (h : Mon.OnlyCalls n n') : Light n n' := by
  obtain ⟨l, -, rfl⟩ := h
  exact ⟨rfl, rfl, rfl, rfl, rfl, rfl, rfl, rfl⟩

theorem addModule_rig {env : Env} (hh : ∀ k, env.hwOk k = true) (h10 : 10 < env.nObj) (hn : env.nObj ≤ 32) (h8 : env.maxMod ≤ 8)
    {c : Cpu2} (h : Rig env All c) (tpl : Row) (tx2 : Cpu2Row) (nr : Nat) (rx tx : Nat → Nat)
    (hp : Spec.plainIn (.add tpl tx2 nr rx tx)) (hr : regErr env c (.add tpl tx2 nr rx tx) = E.ok) :
    Rig env All (c.addModule env tpl tx2 nr rx tx).1 := by
  obtain ⟨p1, p2⟩ := hp
  unfold regErr at hr
  unfold addModule
  split
  · exact h
  · next i hi =>
    rw [hi] at hr
    dsimp only at hr
    have hi' := List.find?_some hi
    have hm := List.mem_of_find?_eq_some hi
    simp only [List.mem_range] at hm
    have hf : (c.s.node.rows i).typ = [] := by simpa using hi'
    split
    · next e =>
      rw [if_pos e] at hr
      have k := setModule_rig hh h10 hn h i tpl tx2 (125 + i) rx tx hf p1 p2 (by omega) hm hr
      generalize c.setModule env i tpl tx2 (125 + i) rx tx = r at k ⊢
      refine (k.weaken (T := All) fun t _ => .inl trivial).light ?_ rfl
      exact Light.report ..
    · next e =>
      rw [if_neg e] at hr
      have k := setModule_rig hh h10 hn h i tpl tx2 nr rx tx hf p1 p2 (by omega) hm hr
      generalize c.setModule env i tpl tx2 nr rx tx = r at k ⊢
      refine (k.weaken (T := All) fun t _ => .inl trivial).light ?_ rfl
      exact Light.report ..

theorem table_rig {env : Env} (hh : ∀ k, env.hwOk k = true) (h10 : 10 < env.nObj) (hn : env.nObj ≤ 32)
    {c : Cpu2} (h : Rig env All c) (o : Op) (hp : Spec.plainIn (.api (.table o))) : Rig env All (c.table env o).1 := by
  cases o with
  | add tpl nr rx tx => exact hp.elim
  | silentAwake tp st => exact (setSilentAwake_rig h tp st).1
  | silentAwakeBy typ nr st =>
    show Rig env All (c.setSilentAwakeBy env typ nr st).1
    unfold setSilentAwakeBy; split
    · exact (setSilentAwake_rig h _ st).1
    · exact h
  | setActive typ =>
    show Rig env All (c.setActive env typ).1
    unfold setActive; split
    · exact (syncOn_rig h _).weaken fun t _ => .inl trivial
    · exact h
  | setCritical typ =>
    show Rig env All (c.setCritical env typ).1
    unfold setCritical; split
    · exact (syncOff_rig h _).weaken fun t _ => .inl trivial
    · exact h
  | process => exact h
  | changeNr typ nr act => exact changeNr_rig hh h10 hn h typ nr act hp.1 hp.2
  | changeModuleNr tp nr => exact changeModuleNr_rig hh h10 hn h tp nr hp.1 hp.2
  | changeTypeAdd typ tpl rx tx cb => exact hp.elim
  | changeType tp typ =>
    show Rig env All (c.setNode (changeType env c.s.node tp typ).1)
    unfold changeType
    rw [h.chg tp]
    exact h.keep rfl rfl rfl rfl rfl

theorem callRx_light (env : Env) (n : Node) (k : Conv) (can : List Byte) (p d : Nat) : Light n (n.callRx env k can p d).1 := by
  unfold Node.callRx; split <;> exact ⟨rfl, rfl, rfl, rfl, rfl, rfl, rfl, rfl⟩

theorem rxData_light (env : Env) (c : Cpu2) (tp id dlc : Nat) (data : List Byte) :
    Light c.s.node (c.rxData env tp id dlc data).1.s.node ∧ (c.rxData env tp id dlc data).1.x = c.x := by
  unfold rxData
  extract_lets obj row
  split
  · exact ⟨.refl _, rfl⟩
  · split
    · exact ⟨.refl _, rfl⟩
    · split
      · exact ⟨callRx_light .., rfl⟩
      · exact ⟨callRx_light .., rfl⟩

theorem rxProcessMain_light (env : Env) (s : Slave) (now dlc : Nat) : Light s.node (rxProcessMain env s now dlc).node := by
  unfold rxProcessMain
  dsimp only
  repeat' split
  all_goals exact .refl _

theorem processRequest_light (env : Env) (c : Cpu2) (now dlc : Nat) :
    Light c.s.node (c.processRequest env now dlc).s.node ∧ (c.processRequest env now dlc).x = c.x := by
  have h : Light c.s.node (Slave.rxProcessMain env (Slave.checkImage env (Slave.reqRx c.s) now) now dlc).node :=
    ((calls_light (reqRx_calls c.s).1).trans (calls_light (checkImage_calls env _ now).1)).trans (rxProcessMain_light ..)
  unfold processRequest
  extract_lets s
  have h : Light c.s.node s.node := h
  clear_value s
  split
  · exact ⟨h.trans ⟨rfl, rfl, rfl, rfl, rfl, rfl, rfl, rfl⟩, rfl⟩
  · exact ⟨h, rfl⟩

theorem drain_light (env : Env) (k : Nat) : ∀ (r r' : Node × Err), drain env k r = some r' → Light r.1 r'.1 := by
  induction k with
  | zero =>
    intro r r' h
    unfold drain at h
    split at h
    · cases h; exact .refl _
    · cases h
  | succ k ih =>
    intro r r' h
    unfold drain at h
    split at h
    · cases h; exact .refl _
    · exact Light.trans (b := (dropOneError env r.1).1) ⟨rfl, rfl, rfl, rfl, rfl, rfl, rfl, rfl⟩ (ih _ _ h)

theorem statusRequest_light (env : Env) (s : Slave) : Light s.node (statusRequest env s).node := by
  unfold statusRequest
  extract_lets v s1 r
  have h1 : Light s.node s1.node := by
    show Light _ (if _ then _ else _ : Slave).node
    split
    · exact .refl _
    · exact Slave.callOpt_light { s with sys := { s.sys with first := true } } _
  clear_value s1
  split
  · exact h1.trans ⟨rfl, rfl, rfl, rfl, rfl, rfl, rfl, rfl⟩
  · exact h1

theorem sysSilentAwake_rig {env : Env} {c : Cpu2} (h : Rig env All c) (src : List Byte) (nr st : Nat) :
    Rig env All (c.sysSilentAwake env src nr st).1 := by
  unfold sysSilentAwake
  split
  · split
    · split
      · exact (setSilentAwake_rig h _ st).1
      · exact h
    · exact h
  · exact h

theorem sysMsg_rig {env : Env} (hh : ∀ k, env.hwOk k = true) (h10 : 10 < env.nObj) (hn : env.nObj ≤ 32)
    {c : Cpu2} (h : Rig env All c) (nr dlc : Nat) (src : List Byte) (hp : src.getD 0 0 = 0x20 → src.getD 2 0 ≠ 0) (r : Cpu2 × Err)
    (hr : c.sysMsg env nr dlc src = some r) : Rig env All r.1 := by
  unfold sysMsg at hr
  split at hr
  · cases hr; exact h
  extract_lets s dst s1 rb t z nd at hr
  clear_value dst
  split at hr
  · cases hr; exact h
  split at hr
  · cases hr; exact h
  split at hr
  · have h1 : Light c.s.node s1.node := statusRequest_light env _
    split at hr
    · rcases hd : drain env s1.node.errq.count (s1.node, E.ok) with _ | x
      · rw [hd] at hr; cases hr
      · rw [hd] at hr
        rw [← Option.some.inj hr]
        exact h.light (h1.trans (drain_light env _ _ _ hd)) rfl
    · rw [← Option.some.inj hr]; exact h.light h1 rfl
  · split at hr
    · cases hr; exact h
    · rw [← Option.some.inj hr]; exact h.keep rfl rfl rfl rfl rfl
  · cases hr; exact h
  · cases hr; exact h
  · split at hr
    · rw [← Option.some.inj hr]; exact h.keep rfl rfl rfl rfl rfl
    · cases hr; exact h
  · rw [← Option.some.inj hr]
    refine h.light ?_ rfl
    show Light _ (setCycle env c.s (at8 src 2)).1.node
    unfold setCycle; split <;> exact .refl _
  · cases hr; exact h
  · cases hr; exact h
  · next h20 =>
    split at hr
    · cases hr; exact h
    · split at hr
      · rw [← Option.some.inj hr]
        have e0 : src.getD 0 0 = 0x20 := UInt8.toNat_inj.1 h20
        have e2 : at8 src 2 ≠ 0 := fun e => hp e0 (UInt8.toNat_inj.1 e)
        have e3 : at8 src 2 < 256 := (src.getD 2 0).toNat_lt
        exact changeModuleNr_rig hh h10 hn h _ _ (by omega) (by omega)
      · cases hr; exact h
  · split at hr
    · cases hr; exact h
    · rw [← Option.some.inj hr]; exact sysSilentAwake_rig h ..
  · split at hr
    · cases hr; exact h
    · rw [← Option.some.inj hr]; exact sysSilentAwake_rig h ..
  · cases hr; exact h
  · split at hr
    · rw [← Option.some.inj hr]; exact h.keep rfl rfl rfl rfl rfl
    · cases hr; exact h
  · split at hr
    · cases hr; exact h
    · split at hr
      · next tp _ =>
        rw [← Option.some.inj hr]
        show Rig env All (c.setNode (changeType env c.s.node _ _).1)
        unfold changeType
        rw [h.chg]
        exact h.keep rfl rfl rfl rfl rfl
      · cases hr; exact h
  · cases hr; exact h

theorem handlerRx_rig {env : Env} (hh : ∀ k, env.hwOk k = true) (h10 : 10 < env.nObj) (hn : env.nObj ≤ 32)
    {c c' : Cpu2} (h : Rig env All c) (now obj dlc id : Nat) (data : List Byte) (hp : data.getD 0 0 = 0x20 → data.getD 2 0 ≠ 0)
    (hr : c.handlerRx env now obj dlc id data = some c') : Rig env All c' := by
  unfold handlerRx at hr
  extract_lets c1 c2 at hr
  have h1 : Rig env All c1 := by
    show Rig env All (if _ then _ else _ : Cpu2)
    split
    · split
      · exact h.light (rxData_light ..).1 (rxData_light ..).2
      · exact h
    · exact h
  have h2 : Rig env All c2 := by
    show Rig env All (if _ then _ else _ : Cpu2)
    split
    · exact h1.light (processRequest_light ..).1 (processRequest_light ..).2
    · exact h1
  clear_value c2
  split at hr
  · rcases hs : c2.sysMsg env (sysNrOfId id) dlc data with _ | r
    · rw [hs] at hr; cases hr
    · rw [hs] at hr
      rw [← Option.some.inj hr]
      have := sysMsg_rig hh h10 hn h2 _ _ _ hp r hs
      exact this.light (Light.report ..) rfl
  · rw [← Option.some.inj hr]; exact h2

theorem step_rig {env : Env} (hh : ∀ k, env.hwOk k = true) (h10 : 10 < env.nObj) (hn : env.nObj ≤ 32) (h8 : env.maxMod ≤ 8)
    {c c' : Cpu2} (h : Rig env All c) (i : CIn) (hp : Spec.plainIn i) (hr : regErr env c i = E.ok)
    (hs : step env c i = some c') : Rig env All c' := by
  cases i with
  | api i =>
    cases i with
    | frame now obj dlc id data => exact handlerRx_rig hh h10 hn h _ _ _ _ _ hp hs
    | table o => simp only [step, Option.some.injEq] at hs; subst hs; exact table_rig hh h10 hn h o hp
    | init baud => exact hp.elim
    | trigger now =>
      simp only [step, Slave.step, Option.map_some, Option.some.injEq] at hs; subst hs
      refine h.light ?_ rfl
      show Light _ (Slave.trigger env c.s now).node
      unfold Slave.trigger
      extract_lets a b d
      split <;> exact .refl _
    | setCycle t =>
      simp only [step, Slave.step, Option.map_some, Option.some.injEq] at hs; subst hs
      refine h.light ?_ rfl
      show Light _ (Slave.setCycle env c.s t).1.node
      unfold setCycle; split <;> exact .refl _
    | validCb typ nr f | invalidCb typ nr f | reqCb typ nr f =>
      simp only [step, Slave.step, Option.map_some, Option.some.injEq] at hs; subst hs
      refine h.light ?_ rfl
      show Light _ (setModCb env c.s typ nr _).1.node
      unfold setModCb; split <;> exact .refl _
    | timeCb f =>
      simp only [step, Slave.step, Option.map_some, Option.some.injEq] at hs; subst hs
      refine h.light ?_ rfl
      show Light _ (setTimeCb c.s f).node
      unfold setTimeCb; split <;> exact .refl _
    | resetCb f =>
      simp only [step, Slave.step, Option.map_some, Option.some.injEq] at hs; subst hs
      refine h.light ?_ rfl
      show Light _ (setResetCb c.s f).node
      unfold setResetCb; split <;> exact .refl _
    | getPeriode | setMode m | setBaud b | allCb f | firstCb f | firstStatusCb f =>
      simp only [step, Slave.step, Option.map_some, Option.some.injEq] at hs; subst hs
      exact h.light (.refl _) rfl
  | add tpl x nr rx tx =>
    simp only [step, Option.some.injEq] at hs; subst hs
    exact addModule_rig hh h10 hn h8 h tpl x nr rx tx hp hr
  | process now bus lec =>
    simp only [step, Option.some.injEq] at hs; subst hs
    refine h.light ?_ rfl
    show Light _ (Slave.trigger env c.s now).node
    unfold Slave.trigger
    extract_lets a b d
    split <;> exact .refl _
  | start => simp only [step, Option.some.injEq] at hs; subst hs; exact h.light (.refl _) rfl

theorem run_rig {env : Env} (hh : ∀ k, env.hwOk k = true) (h10 : 10 < env.nObj) (hn : env.nObj ≤ 32) (h8 : env.maxMod ≤ 8) :
    ∀ (is : List CIn) (c c' : Cpu2), Rig env All c → Fine env c is → run env c is = some c' → Rig env All c'
  | [], c, c', h, _, hr => by rw [← Option.some.inj hr]; exact h
  | i :: is, c, c', h, hf, hr => by
    obtain ⟨f1, f2, f3⟩ := hf
    rcases hs : step env c i with _ | c1
    · simp [run, hs] at hr
    · simp only [run, hs, Option.bind_some] at hr
      exact run_rig hh h10 hn h8 is c1 c' (step_rig hh h10 hn h8 h i f1 f2 hs) (f3 c1 hs) hr

/-! ## After `lcsa_init` -/

theorem init_rig {env : Env} (hh : ∀ k, env.hwOk k = true) (h10 : 10 < env.nObj) (mem : Nat → List Byte) (baud : Nat) :
    Rig env All { (boot mem) with s := (Slave.init env (boot mem).s baud).1 } := by
  have hnode : (Slave.init env (boot mem).s baud).1.node = (Node.init env (Node.boot mem)).1 := init_node ..
  -- the objects are programmed one after the other
  let P : Node → Prop := fun n => n.slots = [] ∧ n.chg = (Node.boot mem).chg ∧
    (∀ t, (n.rows t).typ = [] ∧ (n.rows t).txObj = 0 ∧ (n.rows t).rxObj = 0 ∧ (n.rows t).txObjSync = 0) ∧
    (∀ o d, n.hw.defs o = some d → d.svc ≠ .rx true ∧ NotData d)
  have step : ∀ n o d, P n → o < env.nObj → d.svc ≠ .rx true → NotData d →
      ∃ n', define env n o d = (n', E.ok) ∧ P n' ∧ ∀ q, n'.hw.used q = true ↔ (q = o ∨ n.hw.used q = true) := by
    intro n o d ⟨p1, p2, p3, p4⟩ ho hd hx
    refine ⟨_, define_hw hh n ho d, ⟨p1, p2, p3, fun q e he => ?_⟩, fun q => ?_⟩
    · have he : upd n.hw.defs o (some d) q = some e := he
      by_cases hq : q = o
      · subst hq; rw [upd_same] at he; cases he; exact ⟨hd, hx⟩
      · rw [upd_other _ _ hq] at he; exact p4 q e he
    · show upd n.hw.used o true q = true ↔ _
      by_cases hq : q = o
      · subst hq; simp
      · rw [upd_other _ _ hq]; simp [hq]
  have fin : ∃ n', (Node.init env (Node.boot mem)).1 = n' ∧ P n' ∧ ∀ q, Fixed env q → n'.hw.used q = true := by
    unfold Node.init
    extract_lets _ n0 r0 r2 r3 r6
    have p0 : P n0 := by
      refine ⟨rfl, rfl, fun t => ?_, fun o d h => ?_⟩
      · by_cases e : t < env.maxMod
        · simp [n0, e, Node.boot]
        · simp [n0, e, Node.boot]
      · have h : (if o < env.nObj then none else (Node.boot mem).hw.defs o) = some d := h
        split at h
        · cases h
        · cases h
    clear_value n0
    obtain ⟨a0, e0, pa0, u0⟩ := step n0 0 ⟨0x001, 0x7FF#16, 1, .rx false⟩ p0 (by omega) (by simp) (notData_id rfl (by simp))
    have er0 : r0 = (a0, E.ok) := e0
    obtain ⟨a2, e2, pa2, u2⟩ := step a0 2 ⟨0x002, 0x7FF#16, 8, .rx false⟩ pa0 (by omega) (by simp) (notData_id rfl (by simp))
    have er2 : r2 = (a2, E.ok) := by
      show thenOk r0 _ = _
      rw [er0]; simp only [thenOk, if_true]; exact e2
    have er3 : ∃ a3, r3 = (a3, E.ok) ∧ P a3 ∧ (∀ q, a2.hw.used q = true → a3.hw.used q = true) ∧ (env.sysObj2 = true → a3.hw.used 3 = true) := by
      show ∃ a3, thenOk r2 _ = _ ∧ _
      rw [er2]; simp only [thenOk, if_true]
      by_cases hs : env.sysObj2 = true
      · rw [if_pos hs]
        obtain ⟨a3, e3, pa3, u3⟩ := step a2 3 ⟨0x002, 0x7FF#16, 8, .rx false⟩ pa2 (by omega) (by simp) (notData_id rfl (by simp))
        exact ⟨a3, e3, pa3, fun q hq => (u3 q).2 (.inr hq), fun _ => (u3 3).2 (.inl rfl)⟩
      · rw [if_neg hs]
        exact ⟨a2, rfl, pa2, fun q hq => hq, fun h => absurd h hs⟩
    obtain ⟨a3, er3, pa3, u3, u3'⟩ := er3
    obtain ⟨a6, e6, pa6, u6⟩ := step a3 6 ⟨0x600, 0x7FF#16, 8, .asyncRx⟩ pa3 (by omega) (by simp) (notData_id rfl (by simp))
    have er6 : r6 = (a6, E.ok) := by
      show thenOk r3 _ = _
      rw [er3]; simp only [thenOk, if_true]; exact e6
    obtain ⟨aa, ea, paa, ua⟩ := step a6 10 ⟨0, 0x7FF#16, 0, .tx⟩ pa6 h10 (by simp) (notData_id rfl (by simp))
    refine ⟨aa, ?_, paa, fun q hq => ?_⟩
    · rw [er6]; simp only [thenOk, if_true]; rw [ea]
    · have k2 : ∀ q, a2.hw.used q = true → aa.hw.used q = true := fun q h => (ua q).2 (.inr ((u6 q).2 (.inr (u3 q h))))
      rcases hq with rfl | rfl | ⟨rfl, hs⟩ | rfl | rfl
      · exact k2 0 ((u2 0).2 (.inr ((u0 0).2 (.inl rfl))))
      · exact k2 2 ((u2 2).2 (.inl rfl))
      · exact (ua 3).2 (.inr ((u6 3).2 (.inr (u3' hs))))
      · exact (ua 6).2 (.inr ((u6 6).2 (.inl rfl)))
      · exact (ua 10).2 (.inl rfl)
  obtain ⟨n', en, ⟨p1, p2, p3, p4⟩, pu⟩ := fin
  have hN : ({ (boot mem) with s := (Slave.init env (boot mem).s baud).1 } : Cpu2).s.node = n' := by rw [← en]; exact hnode
  generalize ({ (boot mem) with s := (Slave.init env (boot mem).s baud).1 } : Cpu2) = c at hN
  refine ⟨⟨fun b t i hi => ?_, fun o t hs => ?_, ?_, fun t b i b' j hi => ?_, fun q hq => ?_, ?_, fun o d hd hs => ?_, fun o d hd hs => ?_⟩,
    fun t => ?_, fun t _ => ?_, fun t _ => ?_, fun t => ?_, fun t _ => ?_⟩
  · cases b <;> simp [lims, hN, p3] at hi
  · rw [hN, p1] at hs; cases hs
  · rw [hN, p1]; exact List.nodup_nil
  · cases b <;> simp [lims, hN, p3] at hi
  · rw [hN, p1] at hq; cases hq
  · rw [hN]; exact pu
  · rw [hN] at hd; exact absurd hs (p4 o d hd).1
  · rw [hN] at hd; exact (p4 o d hd).2
  · rw [hN, (p3 t).2.1, (p3 t).2.2.1]; omega
  · rw [hN]; exact ⟨(p3 t).2.1, (p3 t).2.2.1⟩
  · refine .inr ⟨by rw [hN]; exact (p3 t).2.2.2, fun i hi => ?_, fun i hi => ?_⟩
    · rw [hN, (p3 t).2.1] at hi; omega
    · rw [hN, (p3 t).2.2.1] at hi; omega
  · rw [hN, p2]; rfl
  · rw [hN]; exact (p3 t).1

end Cpu2
end LiCan
