import Verif.Lemmas.NodeTrace
import Verif.Props.Image
/-! # What leaves the process image alone -/
namespace LiCan
namespace Stack

/-- what the verdicts depend on -/
def six (s : Stack) : Nat × Nat × Nat × Nat × (Nat → Nat → Nat) × (Nat → Bool) :=
  (s.slv.sync.errPr, s.slv.sync.prFlag, s.slv.sync.prCnt, s.slv.sync.prDlc, s.slv.sync.cnt, s.slv.sync.valid)

/-- the same process image -/
def Same {α : Type} (a b : α) : Prop := b = a

theorem Same.refl {α : Type} (a : α) : Same a a := rfl
theorem Same.trans {α : Type} {a b c : α} (h : Same a b) (g : Same b c) : Same a c := Eq.trans g h

theorem Quiet.img {s s' : Stack} (h : Quiet s s') : Same s.six s'.six := by
  have := h.slv
  unfold Same six
  rw [this]

theorem port_img (env : AEnv) (s : Stack) (c : ACall) (hc : ofSearch c = false := by rfl) :
    Same s.six (s.callPort env c).1.six := (Quiet.callPort env s c hc).img

theorem command_img (env : AEnv) (s : Stack) (nr tp : Nat) (src : List Byte) :
    Same s.six (s.command env nr tp src).1.six := by
  unfold Stack.command
  split
  · exact (Quiet.versionShort env s nr src).img
  · exact (Quiet.versionLong1 s src).img
  · exact (Quiet.versionLong2 env s nr src).img
  · exact (Quiet.dlStart1 s src).img
  · exact (Quiet.dlStart2 env s nr tp src).img
  · exact (Quiet.dlData env s nr src).img
  · exact (Quiet.dlBlockEnd env s nr src).img
  · exact (Quiet.dlEnd env s nr).img
  · unfold tnlX; dsimp only; split
    · exact (port_img env s _)
    · exact .refl _
  · unfold tnlX; dsimp only; split
    · exact (port_img env s _)
    · exact .refl _
  · unfold Stack.tnlOpen
    have hq := port_img env s .tnlOpen
    generalize s.callPort env .tnlOpen = r at hq ⊢
    split
    · simp only
      split
      · split
        · exact hq
        · exact hq
      · exact hq
    · exact rfl
  · unfold Stack.tnlCloseReq
    have hq := port_img env s .tnlFree
    generalize s.callPort env .tnlFree = r at hq ⊢
    simp only
    split
    · exact hq
    · exact hq
  · unfold Stack.tnlReset
    split
    · have hq := port_img env s .tnlClear
      generalize s.callPort env .tnlClear = r at hq ⊢
      simp only
      split
      · exact (hq.trans (port_img env _ _))
      · exact hq
    · exact .refl _
  · exact .refl _
  · unfold Stack.tnlCloseAck
    split
    · exact ((port_img env s .tnlFree).trans (.refl _))
    · exact .refl _
  · exact .refl _
  · unfold Stack.tnlCloseDeny
    split <;> exact .refl _
  · exact .refl _
  · exact .refl _
  · exact (Quiet.ulBlockAckn env s).img
  · exact (Quiet.ulStop s).img
  · exact (Quiet.ulStop s).img
  · exact (Quiet.infoShort env s nr src).img
  · exact (Quiet.ulStart1 s nr src).img
  · exact (Quiet.ulStart2 env s nr src).img
  · exact .refl _

theorem ctrlRx_img (env : AEnv) (s : Stack) (obj id : Nat) (src : List Byte) :
    Same s.six (s.ctrlRx env obj id src).six := by
  have ha : ∀ s : Stack, ∀ nr, Same s.six (s.asyncRx env nr src).1.six := by
    intro s nr
    unfold Stack.asyncRx
    split
    · exact .refl _
    split
    · exact .refl _
    · exact command_img env s nr _ src
  unfold Stack.ctrlRx
  split
  · have hf : ∀ (l : List Nat) (s : Stack),
        Same s.six (l.foldl (ctrlStep env obj (asyncNrOfId id) src) s).six := by
      intro l
      induction l with
      | nil => exact fun s => .refl _
      | cons k l ih =>
        intro s
        rw [List.foldl_cons]
        refine Same.trans ?_ (ih _)
        unfold Stack.ctrlStep
        split
        · exact ha s _
        · exact .refl _
    exact hf _ s
  · exact .refl _

theorem enqueue_img (env : AEnv) (s : Stack) (nr dlc : Nat) (src : List Byte) :
    Same s.six (s.enqueue env nr dlc src).1.six := by
  have hh : ∀ s : Stack, Same s.six (handleQ env s).1.six := by
    intro s
    unfold handleQ
    split
    · dsimp only
      split <;> exact rfl
    · exact .refl _
  have hk : ∀ s : Stack, Same s.six (handlerTx env s).six := by
    intro s
    unfold handlerTx
    split
    · split
      · exact hh s
      · exact .refl _
    · exact .refl _
  unfold Stack.enqueue
  split
  · exact .refl _
  split
  · exact .refl _
  · dsimp only
    refine Same.trans ?_ (hk _)
    exact .refl _

theorem retry_img (env : AEnv) (s : Stack) : Same s.six (s.putcRetry env).1.six := by
  unfold Stack.putcRetry
  have h := enqueue_img env s s.tnl.own s.tnl.tmp.length s.tnl.tmp
  generalize s.enqueue env s.tnl.own s.tnl.tmp.length s.tnl.tmp = r at h ⊢
  simp only
  split <;> exact h

theorem putc_img (env : AEnv) (s : Stack) (x : Byte) : Same s.six (s.putc env x).1.six := by
  unfold Stack.putc
  split
  · exact .refl _
  split
  · simp only
    split
    · exact Same.trans (.refl _) (retry_img env _)
    · exact .refl _
  · exact .refl _

theorem processTx_img (env : AEnv) (s : Stack) (now : Nat) : Same s.six (s.processTx env now).1.six := by
  unfold Stack.processTx
  split
  · exact .refl _
  split
  · split
    · have h := enqueue_img env s s.tnl.own s.tnl.tmp.length s.tnl.tmp
      generalize s.enqueue env s.tnl.own s.tnl.tmp.length s.tnl.tmp = r at h ⊢
      simp only
      split <;> exact h
    · exact .refl _
  · exact .refl _

theorem notify_img (s : Stack) (f : Option Nat) (c : Nat → ACall) : Same s.six (s.notify f c).six := by
  cases f with
  | none => exact .refl _
  | some k => exact rfl

theorem unaware_img (env : AEnv) (s : Stack) (e : Option Err) : Same s.six (s.reportUnaware env e).six := by
  cases e with
  | none => exact .refl _
  | some e =>
    unfold Stack.reportUnaware
    dsimp only
    split
    · exact rfl
    · exact .refl _

theorem nextBaud_imgT (env : AEnv) (s : Stack) (now : Nat) : (s.nextBaud env now).six = s.six := by
  have h1 : ∀ r : Stack × Err, (if r.2 = E.ok then (r.1.nodeMode env .listen).1 else r.1).six = r.1.six := by
    intro r
    split <;> rfl
  exact h1 (Stack.baudRate env (s.nodeMode env .stopped).1 (rcTab.getD (if s.rc.idx < 3 then s.rc.idx + 1 else 0) 0))

theorem rcOn_imgT (env : AEnv) (s : Stack) (now : Nat) (first : Bool) : (s.rcOn env now first).six = s.six := by
  unfold Stack.rcOn
  cases first with
  | true => rfl
  | false =>
    simp only [Bool.false_eq_true, if_false]
    exact nextBaud_imgT env _ now

theorem rcDone_img (env : AEnv) (s : Stack) (b : Nat) : Same s.six (s.rcDone env b).six := by
  unfold Stack.rcDone
  split
  · exact (unaware_img env { s with lcsa := .init } _).trans (notify_img ..)
  · exact (unaware_img env { s with lcsa := .running } _).trans (notify_img ..)
  · exact (unaware_img env { s with lcsa := .running } _).trans (notify_img ..)
  · exact notify_img { s with lcsa := .init } _ _
  · exact .refl _

theorem rcOff_img (env : AEnv) (s : Stack) (now : Nat) : Same s.six (s.rcOff env now).six := by
  unfold Stack.rcOff
  dsimp only
  have h1 : ∀ r : Stack × Err, r.1.six = s.six →
      (if r.2 = E.ok then r.1.nodeMode env .operational else r).1.six = s.six := by
    intro r e
    split
    · exact e
    · exact e
  have h2 := h1 (Stack.baudRate env ((s.setR fun c => { c with process := false }).nodeMode env .stopped).1 s.rc.back) rfl
  generalize (if (Stack.baudRate env ((s.setR fun c => { c with process := false }).nodeMode env .stopped).1 s.rc.back).2 = E.ok then
    (Stack.baudRate env ((s.setR fun c => { c with process := false }).nodeMode env .stopped).1 s.rc.back).1.nodeMode env .operational
    else Stack.baudRate env ((s.setR fun c => { c with process := false }).nodeMode env .stopped).1 s.rc.back) = r at h2 ⊢
  rw [← h2]
  by_cases h : r.2 = E.ok
  · rw [if_pos h, if_pos h]
    exact Same.trans (.refl _) (rcDone_img env (Stack.setR { r.1 with lcsa := .running }
      fun c => { c with state := .off, nr := u16 (c.nr + 1) }) s.rc.back)
  · rw [if_neg h, if_neg h]
    exact .refl _

theorem rcStartup_img (env : AEnv) (s : Stack) (now : Nat) : Same s.six (s.rcStartup env now).six := by
  unfold Stack.rcStartup
  split
  · dsimp only
    rw [rcOn_imgT]
    exact notify_img ..
  · exact .refl _

theorem rcError_img (env : AEnv) (s : Stack) (now : Nat) (c : RCause) : Same s.six (s.rcError env now c).six := by
  unfold Stack.rcError
  split
  · dsimp only
    rw [rcOn_imgT]
    exact notify_img ..
  · exact .refl _

theorem rcSwitch_imgT (env : AEnv) (s : Stack) (now : Nat) : (s.rcSwitch env now).six = s.six := by
  unfold Stack.rcSwitch
  split
  · exact nextBaud_imgT env s now
  · rfl

theorem rcProcess_img (env : AEnv) (s : Stack) (now : Nat) (p : Pending) (l : Lec) :
    Same s.six (s.rcProcess env now p l).six := by
  have off : ∀ s1 : Stack, s1.six = s.six → Same s.six (s1.rcOff env now).six := by
    intro s1 e; rw [← e]; exact rcOff_img env s1 now
  have eqp : ∀ s1 : Stack, s1.six = s.six → Same s.six s1.six := by
    intro s1 e; rw [e]; exact .refl _
  unfold Stack.rcProcess
  split
  · exact .refl _
  split
  · split
    · exact off _ rfl
    split
    · exact off _ rfl
    split
    · exact eqp _ (rcOn_imgT env _ now false)
    split
    · exact eqp _ (nextBaud_imgT env s now)
    · exact .refl _
  · split
    · exact off _ rfl
    split
    · exact eqp _ (rcSwitch_imgT env s now)
    split
    · exact off _ rfl
    · dsimp only
      split
      · exact off _ rfl
      · exact .refl _
    · split
      · exact off _ rfl
      · exact .refl _
    · exact eqp _ (rcSwitch_imgT env _ now)
  · dsimp only
    split <;> exact .refl _
  · exact .refl _

theorem hwBusOff_img (env : AEnv) (s : Stack) (now : Nat) (b : BusState) (l : Lec) :
    Same s.six (s.hwBusOff env now b l).six := by
  have h : ∀ s1 : Stack, s1.six = s.six → Same s.six (s1.rcError env now .boff).six := by
    intro s1 e; rw [← e]; exact rcError_img ..
  unfold Stack.hwBusOff
  split
  · exact h _ rfl
  · exact .refl _

theorem hwPassive_img (env : AEnv) (s : Stack) (now : Nat) (b : BusState) :
    Same s.six (s.hwPassive env now b).six := by
  have h : ∀ s1 : Stack, s1.six = s.six → Same s.six (s1.rcError env now .ewrn).six := by
    intro s1 e; rw [← e]; exact rcError_img ..
  unfold Stack.hwPassive
  split
  · exact h _ rfl
  · exact .refl _

theorem hwError_img (env : AEnv) (s : Stack) (now : Nat) (b : BusState) (l : Lec) :
    Same s.six (s.hwError env now b l).six := by
  unfold Stack.hwError
  dsimp only
  have h3 : Same s.six (if (b ≠ .active ∨ l ≠ .none) ∧ s.rc.state = .off then (s.hwBusOff env now b l).hwPassive env now b else s).six := by
    split
    · exact (hwBusOff_img ..).trans (hwPassive_img ..)
    · exact .refl _
  generalize (if (b ≠ .active ∨ l ≠ .none) ∧ s.rc.state = .off then (s.hwBusOff env now b l).hwPassive env now b else s) = s1 at h3 ⊢
  split
  · exact h3.trans (rcProcess_img ..)
  · exact h3

theorem start_img (env : AEnv) (s : Stack) (now : Nat) : Same s.six (s.start env now).1.six := by
  have ha : ∀ s : Stack, Same s.six (s.startAck env).six := by
    intro s
    unfold Stack.startAck
    split
    · exact ((Quiet.refl s).endA env _).img.trans (.refl _)
    · exact .refl _
  have fin : ∀ r : Stack × Err, Same s.six r.1.six →
      Same s.six (if r.2 = E.ok then (({ r.1.startAck env with lcsa := .running }, E.ok) : Stack × Err) else r).1.six := by
    intro r h
    split
    · exact h.trans (ha _)
    · exact h
  unfold Stack.start
  refine fin _ ?_
  split
  · dsimp only
    split <;> exact .refl _
  · exact Same.trans (.refl _) (rcStartup_img env _ now)


theorem dataRx_img (env : AEnv) (s : Stack) (obj dlc : Nat) (src : List Byte) : Same s.six (s.dataRx env obj dlc src).six := by
  unfold Stack.dataRx
  split
  · exact port_img env _ _
  · exact .refl _

theorem init_img (env : AEnv) (s : Stack) (b : Nat) : Same s.six (s.init env b).1.six := by
  have key : ∀ (s1 : Stack) (b : Nat), Same s.six s1.six → Same s.six (s1.setSlv env (s1.slv.init env.toEnv b).1).six := by
    intro s1 b h
    refine h.trans ?_
    show Same _ _
    unfold Slave.init
    dsimp only
    split <;> rfl
  unfold Stack.init
  refine key _ _ ?_
  have h3 : ∀ s1 : Stack, Same s.six s1.six → ∀ p : Prop, ∀ [Decidable p],
      Same s.six (if p then { s1 with lcsa := .download } else s1).six := by
    intro s1 h p _
    split
    · exact h
    · exact h
  refine h3 _ ?_ _
  split
  · exact rfl
  · exact .refl _

theorem api_img {env : AEnv} {s : Stack} {v : Slave} {i : In} (hi : isApi i = true) (h : s.slv.step env.toEnv i = some v) :
    Same s.six ({ s with slv := v } : Stack).six := by
  cases i with
  | frame => exact nomatch hi
  | trigger => exact nomatch hi
  | setBaud => exact nomatch hi
  | init => exact nomatch hi
  | getPeriode =>
    injection h with h; subst h
    unfold Slave.getPeriode; simp only
    split <;> rfl
  | setCycle t =>
    injection h with h; subst h
    unfold Slave.setCycle
    split <;> rfl
  | validCb typ nr f =>
    injection h with h; subst h
    unfold Same six; dsimp only
    rcases Slave.setModCb_keeps env.toEnv s.slv typ nr (fun v tp => { v with validCb := upd v.validCb tp f }) with e | ⟨tp, e⟩ <;> rw [e]
  | invalidCb typ nr f =>
    injection h with h; subst h
    unfold Same six; dsimp only
    rcases Slave.setModCb_keeps env.toEnv s.slv typ nr (fun v tp => { v with invalidCb := upd v.invalidCb tp f }) with e | ⟨tp, e⟩ <;> rw [e]
  | reqCb typ nr f =>
    injection h with h; subst h
    unfold Same six; dsimp only
    rcases Slave.setModCb_keeps env.toEnv s.slv typ nr (fun v tp => { v with reqCb := upd v.reqCb tp f }) with e | ⟨tp, e⟩ <;> rw [e]
  | timeCb f =>
    injection h with h; subst h
    unfold Slave.setTimeCb; split <;> rfl
  | resetCb f =>
    injection h with h; subst h
    unfold Slave.setResetCb; split <;> rfl
  | setMode m => injection h with h; subst h; rfl
  | table o => injection h with h; subst h; rfl
  | allCb f => injection h with h; subst h; rfl
  | firstCb f => injection h with h; subst h; rfl
  | firstStatusCb f => injection h with h; subst h; rfl

/-- only a received frame changes the process image -/
theorem step_img {env : AEnv} {s s' : Stack} {i : SIn} (h : s.step env i = some s') (hi : ∀ now obj dlc id ext data, i ≠ .rx now obj dlc id ext data) :
    Same s.six s'.six := by
  have ret : ∀ {t : Stack}, some t = some s' → Same s.six t.six → Same s.six s'.six := by
    intro t e k
    rw [← Option.some.inj e]; exact k
  cases i with
  | rx now obj dlc id ext data => exact absurd rfl (hi now obj dlc id ext data)
  | process now bus lec =>
    refine ret h ?_
    unfold Stack.process
    refine (Same.trans ?_ (hwError_img env { s with slv := s.slv.trigger env.toEnv now } now bus lec)).trans (processTx_img ..)
    obtain ⟨p, e⟩ := Slave.trigger_eq env.toEnv s.slv now
    unfold Same six; dsimp only; rw [e]
  | init b => exact ret h (init_img env s b)
  | start now => exact ret h (start_img env s now)
  | setState l => exact ret h (.refl _)
  | setBaud b => exact ret h (.refl _)
  | api i =>
    simp only [Stack.step] at h
    split at h
    · next hi =>
      simp only [Option.map_eq_some_iff] at h
      obtain ⟨v, hv, rfl⟩ := h
      exact api_img hi hv
    · exact ret h (.refl _)
  | hnd k f => exact ret h (by unfold Stack.setHnd; split <;> exact .refl _)
  | dlStart c => exact ret h (Quiet.dlStart env s c).img
  | act a => exact ret h (Quiet.act env s a).img
  | ulData fuel data => exact (Quiet.ulData env fuel s s' data h).img
  | putc x => exact ret h (putc_img env s x)
  | retry =>
    refine ret h ?_
    split
    · exact .refl _
    · exact retry_img env s
  | xonOff code =>
    refine ret h ?_
    unfold Stack.xonOff
    split
    · exact .refl _
    · exact (Quiet.ctrlTx env s _ _).img
  | shutdown =>
    refine ret h ?_
    unfold Stack.tnlShutdown
    split
    · exact .refl _
    · exact rfl
  | enqueue nr dlc src => exact ret h (enqueue_img env s nr dlc src)
  | info o => exact ret h (.refl _)
  | rcCb k f => exact ret h (by unfold Stack.setRcCb; cases k <;> (dsimp only; split <;> exact .refl _))

end Stack
end LiCan
