import Verif.Lemmas.Cpu2
import Verif.Lemmas.MonTwin
import Verif.Lemmas.MonLink
/-! # The node mode of the monitor CPU -/
namespace LiCan
namespace Cpu2
open Node Slave

/-- same node mode and rate -/
abbrev Lk (c c' : Cpu2) : Prop := c'.s.link = c.s.link

theorem andThen_lk {c : Cpu2} {r : Cpu2 × Err} {f : Cpu2 → Cpu2 × Err} (h : Lk c r.1)
    (hf : ∀ c', Lk c' (f c').1) : Lk c (andThen r f).1 := by
  unfold andThen; split
  · exact Eq.trans (hf _) h
  · exact h

theorem loop_lk {f : Nat → Cpu2 → Cpu2 × Err} (hf : ∀ i c, Lk c (f i c).1) :
    ∀ (l : List Nat) (c : Cpu2), Lk c (loop f l c).1
  | [], c => rfl
  | i :: is, c => by unfold loop; exact andThen_lk (hf i c) (loop_lk hf is)

theorem setSilentAwake_lk (env : Env) (c : Cpu2) (tp st : Nat) : Lk c (c.setSilentAwake env tp st).1 := by
  unfold setSilentAwake; split
  · dsimp only
    split
    · rfl
    · split <;> rfl
  · rfl

theorem onNode_lk (f : Node → Node × Err) (c : Cpu2) : Lk c (c.onNode f).1 := rfl

theorem finish_lk (env : Env) (c : Cpu2) (tp idx nr : Nat) (nrs : List Nat) : Lk c (c.finish env tp idx nr nrs).1 := by
  unfold finish
  refine andThen_lk ?_ fun c => setSilentAwake_lk ..
  refine andThen_lk ?_ fun c => ?_
  · refine andThen_lk ?_ fun c => onNode_lk _ c
    refine andThen_lk ?_ fun c => onNode_lk _ c
    exact onNode_lk _ c
  · split
    · exact onNode_lk _ c
    · rfl

theorem setNode_lk {c c' : Cpu2} (h : Lk c c') (n : Node) : Lk c (c'.setNode n) := h

theorem setTx_lk (env : Env) (tp nr : Nat) (c : Cpu2) : Lk c (c.setTx env tp nr).1 := by
  refine loop_lk (fun i c => ?_) _ _
  unfold setTx1
  dsimp only
  split
  · rfl
  · rfl

theorem setModule_lk (env : Env) (c : Cpu2) (tp : Nat) (tpl : Row) (x : Cpu2Row) (nr : Nat) (rx tx : Nat → Nat) :
    Lk c (c.setModule env tp tpl x nr rx tx).1 := by
  unfold setModule
  extract_lets nr' c0
  have h0 : Lk c c0 := rfl
  clear_value c0
  refine andThen_lk (Eq.trans (setTx_lk ..) h0) fun c => ?_
  refine andThen_lk (onNode_lk _ c) fun c => ?_
  exact setNode_lk (finish_lk ..) _

theorem addModule_lk (env : Env) (c : Cpu2) (tpl : Row) (x : Cpu2Row) (nr : Nat) (rx tx : Nat → Nat) :
    Lk c (c.addModule env tpl x nr rx tx).1 := by
  unfold addModule; split
  · rfl
  · split <;> exact setNode_lk (setModule_lk ..) _

theorem changeNr_lk (env : Env) (c : Cpu2) (typ : List Byte) (nr act : Nat) : Lk c (c.changeNr env typ nr act).1 := by
  unfold changeNr; split
  · rfl
  · extract_lets c0
    have h0 : Lk c c0 := rfl
    clear_value c0
    refine andThen_lk (Eq.trans ?_ h0) fun c => ?_
    · exact loop_lk (fun i c => onNode_lk _ c) _ _
    · refine andThen_lk (onNode_lk _ c) fun c => finish_lk ..

theorem changeModuleNr_lk (env : Env) (c : Cpu2) (tp nr : Nat) : Lk c (c.changeModuleNr env tp nr).1 := by
  unfold changeModuleNr
  extract_lets r
  split
  · exact changeNr_lk ..
  · split
    · exact andThen_lk (changeNr_lk ..) fun c => setSilentAwake_lk ..
    · exact andThen_lk (changeNr_lk ..) fun c => setSilentAwake_lk ..
    · rfl

theorem table_lk (env : Env) (c : Cpu2) (o : Op) : Lk c (c.table env o).1 := by
  cases o with
  | add tpl nr rx tx => exact addModule_lk ..
  | silentAwake tp st => exact setSilentAwake_lk ..
  | silentAwakeBy typ nr st =>
    show Lk c (c.setSilentAwakeBy env typ nr st).1
    unfold setSilentAwakeBy; split
    · exact setSilentAwake_lk ..
    · rfl
  | setActive typ =>
    show Lk c (c.setActive env typ).1
    unfold setActive; split <;> rfl
  | setCritical typ =>
    show Lk c (c.setCritical env typ).1
    unfold setCritical; split <;> rfl
  | process => rfl
  | changeNr typ nr act => exact changeNr_lk ..
  | changeModuleNr tp nr => exact changeModuleNr_lk ..
  | changeTypeAdd typ tpl rx tx cb => exact onNode_lk _ c
  | changeType tp typ => exact onNode_lk _ c

theorem rxData_lk (env : Env) (c : Cpu2) (tp id dlc : Nat) (data : List Byte) : Lk c (c.rxData env tp id dlc data).1 := by
  unfold rxData
  extract_lets obj row
  split
  · rfl
  · split
    · rfl
    · split <;> rfl

theorem processRequest_lk (env : Env) (c : Cpu2) (now dlc : Nat) : Lk c (c.processRequest env now dlc) := by
  have h : (Slave.rxProcessMain env (Slave.checkImage env (Slave.reqRx c.s) now) now dlc).link = c.s.link := by
    rw [Mon.rxProcessMain_link, (checkImage_calls env _ now).2.1, (reqRx_calls c.s).2.1]
  unfold processRequest
  extract_lets s
  have h : s.link = c.s.link := h
  clear_value s
  split <;> exact h

theorem statusRequest_lk (env : Env) (s : Slave) : (statusRequest env s).link = s.link := by
  unfold statusRequest
  extract_lets v s1 r
  have h1 : s1.link = s.link := by
    show (if _ then _ else _ : Slave).link = _
    split
    · rfl
    · rw [Slave.callOpt_link]
  clear_value s1
  split
  · exact h1
  · exact h1

theorem sysSilentAwake_lk (env : Env) (c : Cpu2) (src : List Byte) (nr st : Nat) :
    Lk c (c.sysSilentAwake env src nr st).1 := by
  unfold sysSilentAwake
  split
  · split
    · split
      · exact setSilentAwake_lk ..
      · rfl
    · rfl
  · rfl

/-- What a system message does to the node mode. -/
theorem sysMsg_lk (env : Env) (c : Cpu2) (nr dlc : Nat) (src : List Byte) (r : Cpu2 × Err)
    (h : c.sysMsg env nr dlc src = some r) :
    Lk c r.1 ∨ (at8 src 0 = 2 ∧ nr = 1 ∧ dlc = 8 ∧ r.1.s.link = (changeBaud env c.s.link (at8 src 1 * 256 + at8 src 2)).1) := by
  unfold sysMsg at h
  split at h
  · cases h; exact .inl rfl
  · next hdlc =>
  extract_lets s dst s1 rb t z nd at h
  clear_value dst
  split at h
  · cases h; exact .inl rfl
  split at h
  · cases h; exact .inl rfl
  split at h
  · left
    have h1 : s1.link = c.s.link := statusRequest_lk env _
    split at h
    · rcases hd : drain env s1.node.errq.count (s1.node, E.ok) with _ | x
      · rw [hd] at h; cases h
      · rw [hd] at h
        rw [← Option.some.inj h]
        exact h1
    · rw [← Option.some.inj h]; exact h1
  · next h2 =>
    split at h
    · cases h; exact .inl rfl
    · next hn =>
      rw [← Option.some.inj h]
      exact .inr ⟨h2, Decidable.of_not_not hn, Decidable.of_not_not hdlc, rfl⟩
  · cases h; exact .inl rfl
  · cases h; exact .inl rfl
  · split at h
    · rw [← Option.some.inj h]; exact .inl rfl
    · cases h; exact .inl rfl
  · rw [← Option.some.inj h]
    left
    show (setCycle env c.s (at8 src 2)).1.link = _
    unfold setCycle; split <;> rfl
  · cases h; exact .inl rfl
  · cases h; exact .inl rfl
  · split at h
    · cases h; exact .inl rfl
    · split at h
      · rw [← Option.some.inj h]; exact .inl (changeModuleNr_lk ..)
      · cases h; exact .inl rfl
  · split at h
    · cases h; exact .inl rfl
    · rw [← Option.some.inj h]; exact .inl (sysSilentAwake_lk ..)
  · split at h
    · cases h; exact .inl rfl
    · rw [← Option.some.inj h]; exact .inl (sysSilentAwake_lk ..)
  · cases h; exact .inl rfl
  · split at h
    · rw [← Option.some.inj h]; exact .inl rfl
    · cases h; exact .inl rfl
  · split at h
    · cases h; exact .inl rfl
    · split at h
      · rw [← Option.some.inj h]; exact .inl rfl
      · cases h; exact .inl rfl
  · cases h; exact .inl rfl

theorem handlerRx_lk (env : Env) (c c' : Cpu2) (now obj dlc id : Nat) (data : List Byte)
    (h : c.handlerRx env now obj dlc id data = some c') :
    Lk c c' ∨ (at8 data 0 = 2 ∧ sysNrOfId id = 1 ∧ dlc = 8 ∧ (obj = 2 ∨ (obj = 3 ∧ env.sysObj2 = true)) ∧
      c'.s.link = (changeBaud env c.s.link (at8 data 1 * 256 + at8 data 2)).1) := by
  unfold handlerRx at h
  extract_lets c1 c2 at h
  have h1 : Lk c c1 := by
    show (if _ then _ else _ : Cpu2).s.link = _
    split
    · split
      · exact rxData_lk ..
      · rfl
    · rfl
  have h2 : Lk c c2 := by
    refine Eq.trans ?_ h1
    show (if _ then _ else _ : Cpu2).s.link = _
    split
    · exact processRequest_lk ..
    · rfl
  clear_value c2
  split at h
  · next ho =>
    rcases hs : c2.sysMsg env (sysNrOfId id) dlc data with _ | r
    · rw [hs] at h; cases h
    · rw [hs] at h
      rw [← Option.some.inj h]
      rcases sysMsg_lk env c2 _ _ _ r hs with k | ⟨k1, k2, k3, k4⟩
      · exact .inl (Eq.trans k h2)
      · refine .inr ⟨k1, k2, k3, ho, ?_⟩
        rw [← h2]; exact k4
  · rw [← Option.some.inj h]; exact .inl h2

theorem init_link (env : Env) (s : Slave) (b : Nat) : (Slave.init env s b).1.link = { s.link with startup := b } := by
  unfold Slave.init
  generalize Node.init env s.node = r
  dsimp only
  split <;> rfl

theorem trigger_link (env : Env) (s : Slave) (now : Nat) : (Slave.trigger env s now).link = s.link := by
  unfold Slave.trigger
  extract_lets a b d
  split <;> rfl

theorem setBaud1_mode (b : Nat) (r : Link × Err) (t : Nat) : (setBaud1 b r t).1.mode = r.1.mode ∧ (setBaud1 b r t).1.drv = r.1.drv := by
  unfold setBaud1 hwSetBaud
  dsimp only
  repeat' split
  all_goals exact ⟨rfl, rfl⟩

theorem setBaud_mode (l : Link) (b : Nat) : (Slave.setBaud l b).1.mode = l.mode ∧ (Slave.setBaud l b).1.drv = l.drv := by
  have key : ∀ (ts : List Nat) (r : Link × Err), (ts.foldl (setBaud1 b) r).1.mode = r.1.mode ∧ (ts.foldl (setBaud1 b) r).1.drv = r.1.drv := by
    intro ts
    induction ts with
    | nil => intro r; exact ⟨rfl, rfl⟩
    | cons t ts ih =>
      intro r
      have a := ih (setBaud1 b r t)
      have e := setBaud1_mode b r t
      exact ⟨a.1.trans e.1, a.2.trans e.2⟩
  exact key _ _

theorem drvMode_mode (env : Env) (l : Link) (m : DrvMode) : (drvMode env l m).1.mode = l.mode := by
  unfold drvMode; split <;> rfl

theorem setMode_mode (env : Env) (l : Link) (m : Mode) : (Slave.setMode env l m).1.mode = m := by
  unfold Slave.setMode
  dsimp only
  repeat' split
  all_goals rw [drvMode_mode]

/-- What one input does to the node mode. -/
theorem step_link (env : Env) (c c' : Cpu2) (i : CIn) (h : c.step env i = some c') :
    (c'.s.link.mode = c.s.link.mode ∧ c'.s.link.drv = c.s.link.drv ∧ (∀ now bus lec, i ≠ .process now bus lec)) ∨
    (∃ now obj dlc id data, i = .api (.frame now obj dlc id data) ∧ at8 data 0 = 2 ∧ sysNrOfId id = 1 ∧ dlc = 8 ∧
      (obj = 2 ∨ (obj = 3 ∧ env.sysObj2 = true)) ∧
      c'.s.link = (changeBaud env c.s.link (at8 data 1 * 256 + at8 data 2)).1) ∨
    (∃ now bus lec, i = .process now bus lec ∧ c'.s.link = hwError env c.s.link bus lec) ∨
    (i = .start ∧ c'.s.link = (start env c.s.link).1) ∨ ∃ m, i = .api (.setMode m) ∧ c'.s.link = (Slave.setMode env c.s.link m).1 := by
  have same : Lk c c' → (∀ now bus lec, i ≠ .process now bus lec) →
      c'.s.link.mode = c.s.link.mode ∧ c'.s.link.drv = c.s.link.drv ∧ (∀ now bus lec, i ≠ .process now bus lec) :=
    fun h k => ⟨by rw [h], by rw [h], k⟩
  cases i with
  | api i =>
    cases i with
    | frame now obj dlc id data =>
      rcases handlerRx_lk env c c' _ _ _ _ _ h with k | k
      · exact .inl (same k (fun _ _ _ h => nomatch h))
      · exact .inr (.inl ⟨_, _, _, _, _, rfl, k⟩)
    | table o =>
      refine .inl (same ?_ (fun _ _ _ h => nomatch h))
      simp only [step, Option.some.injEq] at h; subst h; exact table_lk ..
    | init baud =>
      simp only [step, Slave.step, Option.map_some, Option.some.injEq] at h
      have : c'.s.link = { c.s.link with startup := baud } := by rw [← h]; exact init_link ..
      exact .inl ⟨by rw [this], by rw [this], (fun _ _ _ h => nomatch h)⟩
    | setBaud b =>
      simp only [step, Slave.step, Option.map_some, Option.some.injEq] at h
      have : c'.s.link = (Slave.setBaud c.s.link b).1 := by rw [← h]
      exact .inl ⟨by rw [this, (setBaud_mode _ _).1], by rw [this, (setBaud_mode _ _).2], (fun _ _ _ h => nomatch h)⟩
    | setMode m =>
      simp only [step, Slave.step, Option.map_some, Option.some.injEq] at h
      exact .inr (.inr (.inr (.inr ⟨m, rfl, by rw [← h]⟩)))
    | trigger now =>
      refine .inl (same ?_ (fun _ _ _ h => nomatch h))
      simp only [step, Slave.step, Option.map_some, Option.some.injEq] at h; subst h
      exact trigger_link ..
    | setCycle t =>
      refine .inl (same ?_ (fun _ _ _ h => nomatch h))
      simp only [step, Slave.step, Option.map_some, Option.some.injEq] at h; subst h
      show (Slave.setCycle env c.s t).1.link = _
      unfold setCycle; split <;> rfl
    | validCb typ nr f | invalidCb typ nr f | reqCb typ nr f =>
      refine .inl (same ?_ (fun _ _ _ h => nomatch h))
      simp only [step, Slave.step, Option.map_some, Option.some.injEq] at h; subst h
      show (setModCb env c.s typ nr _).1.link = _
      unfold setModCb; split <;> rfl
    | timeCb f =>
      refine .inl (same ?_ (fun _ _ _ h => nomatch h))
      simp only [step, Slave.step, Option.map_some, Option.some.injEq] at h; subst h
      show (setTimeCb c.s f).link = _
      unfold setTimeCb; split <;> rfl
    | resetCb f =>
      refine .inl (same ?_ (fun _ _ _ h => nomatch h))
      simp only [step, Slave.step, Option.map_some, Option.some.injEq] at h; subst h
      show (setResetCb c.s f).link = _
      unfold setResetCb; split <;> rfl
    | getPeriode | allCb f | firstCb f | firstStatusCb f =>
      refine .inl (same ?_ (fun _ _ _ h => nomatch h))
      simp only [step, Slave.step, Option.map_some, Option.some.injEq] at h; subst h; rfl
  | add tpl x nr rx tx =>
    refine .inl (same ?_ (fun _ _ _ h => nomatch h))
    simp only [step, Option.some.injEq] at h; subst h; exact addModule_lk ..
  | process now bus lec =>
    simp only [step, Option.some.injEq] at h
    refine .inr (.inr (.inl ⟨now, bus, lec, rfl, ?_⟩))
    rw [← h]
    show hwError env (Slave.trigger env c.s now).link bus lec = _
    rw [trigger_link]
  | start =>
    simp only [step, Option.some.injEq] at h
    exact .inr (.inr (.inr (.inl ⟨rfl, by rw [← h]⟩)))

end Cpu2
end LiCan
