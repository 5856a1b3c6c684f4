import Verif.Lemmas.StackRest
import Verif.Spec.Recon
/-! # The baud rate search: what every function does to it -/
namespace LiCan
namespace Slave

/-- the rates of the link -/
theorem setMode_mode (env : Env) (l : Link) (m : Mode) :
    (setMode env l m).1.mode = m ∧ (setMode env l m).1.hwRate = l.hwRate ∧ (setMode env l m).1.cur = l.cur ∧
    (setMode env l m).1.stored = l.stored ∧ (setMode env l m).1.storedN = l.storedN ∧
    (setMode env l m).1.startup = l.startup := by
  unfold setMode
  dsimp only
  split
  · unfold drvMode; split <;> exact ⟨rfl, rfl, rfl, rfl, rfl, rfl⟩
  split
  · unfold drvMode; split <;> exact ⟨rfl, rfl, rfl, rfl, rfl, rfl⟩
  · unfold drvMode; split <;> exact ⟨rfl, rfl, rfl, rfl, rfl, rfl⟩

/-- an obedient driver -/
theorem setMode_ok {env : Env} (h : ∀ k, env.modeOk k = true) (l : Link) (m : Mode) :
    (setMode env l m).2 = E.ok ∧
    (setMode env l m).1.drv = if m = .operational then .start else if env.recon = true ∧ m = .listen then .listen else .stop := by
  unfold setMode
  dsimp only
  split
  · unfold drvMode; rw [if_pos (h _)]; exact ⟨rfl, rfl⟩
  split
  · unfold drvMode; rw [if_pos (h _)]; exact ⟨rfl, rfl⟩
  · unfold drvMode; rw [if_pos (h _)]; exact ⟨rfl, rfl⟩

theorem setBaud_stopped (l : Link) (b : Nat) (hm : l.mode = .stopped) (hb : b = 125 ∨ b = 250 ∨ b = 500 ∨ b = 1000) :
    setBaud l b = ({ l with cur := b, hwRate := b, stored := b, storedN := l.storedN + 1 }, E.ok) := by
  rcases hb with h | h | h | h <;> subst h <;> simp [setBaud, bdrTab, setBaud1, hwSetBaud, hm]

/-- while the controller listens -/
theorem setBaud_listen (l : Link) (b : Nat) (hm : l.mode = .listen) : ∃ c, (setBaud l b).1 = { l with cur := c } := by
  by_cases h1 : b = 250
  · subst h1; exact ⟨250, by simp [setBaud, bdrTab, setBaud1, hwSetBaud, hm]⟩
  by_cases h2 : b = 125
  · subst h2; exact ⟨125, by simp [setBaud, bdrTab, setBaud1, hwSetBaud, hm]⟩
  by_cases h3 : b = 500
  · subst h3; exact ⟨500, by simp [setBaud, bdrTab, setBaud1, hwSetBaud, hm]⟩
  by_cases h4 : b = 1000
  · subst h4; exact ⟨1000, by simp [setBaud, bdrTab, setBaud1, hwSetBaud, hm]⟩
  · exact ⟨l.cur, by simp [setBaud, bdrTab, setBaud1, h1, h2, h3, h4]⟩

theorem setBaud_other (l : Link) (b : Nat) (hb : ¬ (b = 125 ∨ b = 250 ∨ b = 500 ∨ b = 1000)) : setBaud l b = (l, E.ok) := by
  have h1 : b ≠ 125 := fun e => hb (.inl e)
  have h2 : b ≠ 250 := fun e => hb (.inr (.inl e))
  have h3 : b ≠ 500 := fun e => hb (.inr (.inr (.inl e)))
  have h4 : b ≠ 1000 := fun e => hb (.inr (.inr (.inr e)))
  simp [setBaud, bdrTab, setBaud1, h1, h2, h3, h4]

end Slave
namespace Stack
open Spec

variable {env : AEnv}

/-- the search and the link are left alone -/
def Keep (s s' : Stack) : Prop := s'.rc = s.rc ∧ s'.slv.link = s.slv.link

theorem Keep.refl (s : Stack) : Keep s s := ⟨rfl, rfl⟩
theorem Keep.trans {a b c : Stack} (h : Keep a b) (g : Keep b c) : Keep a c := ⟨g.1.trans h.1, g.2.trans h.2⟩
theorem Quiet.keep {s s' : Stack} (h : Quiet s s') : Keep s s' := ⟨h.rc, by rw [h.slv]⟩
theorem Keep.tx (env : AEnv) (s : Stack) (nr : Nat) (d : List Byte) : Keep s (s.ctrlTx env nr d) := ⟨rfl, rfl⟩
theorem Keep.port (env : AEnv) (s : Stack) (c : ACall) (hc : ofSearch c = false := by rfl) : Keep s (s.callPort env c).1 :=
  (Quiet.callPort env s c hc).keep

theorem Keep.command (env : AEnv) (s : Stack) (nr tp : Nat) (src : List Byte) : Keep s (s.command env nr tp src).1 := by
  unfold Stack.command
  split
  · exact (Quiet.versionShort env s nr src).keep
  · exact (Quiet.versionLong1 s src).keep
  · exact (Quiet.versionLong2 env s nr src).keep
  · exact (Quiet.dlStart1 s src).keep
  · exact (Quiet.dlStart2 env s nr tp src).keep
  · exact (Quiet.dlData env s nr src).keep
  · exact (Quiet.dlBlockEnd env s nr src).keep
  · exact (Quiet.dlEnd env s nr).keep
  · unfold tnlX; dsimp only; split
    · exact .port env s _
    · exact .refl s
  · unfold tnlX; dsimp only; split
    · exact .port env s _
    · exact .refl s
  · unfold Stack.tnlOpen
    have hq := Keep.port env s .tnlOpen
    generalize s.callPort env .tnlOpen = r at hq ⊢
    split
    · simp only
      split
      · split
        · exact hq.trans ⟨rfl, rfl⟩
        · exact hq.trans ⟨rfl, rfl⟩
      · exact hq.trans ⟨rfl, rfl⟩
    · exact ⟨rfl, rfl⟩
  · unfold Stack.tnlCloseReq
    have hq := Keep.port env s .tnlFree
    generalize s.callPort env .tnlFree = r at hq ⊢
    simp only
    split
    · exact hq.trans ⟨rfl, rfl⟩
    · exact hq.trans ⟨rfl, rfl⟩
  · unfold Stack.tnlReset
    split
    · have hq := Keep.port env s .tnlClear
      generalize s.callPort env .tnlClear = r at hq ⊢
      simp only
      split
      · exact hq.trans (.port env _ _)
      · exact hq
    · exact .refl s
  · exact .refl s
  · unfold Stack.tnlCloseAck
    split
    · exact (Keep.port env s .tnlFree).trans ⟨rfl, rfl⟩
    · exact .refl s
  · exact .refl s
  · unfold Stack.tnlCloseDeny
    split
    · exact ⟨rfl, rfl⟩
    · exact .refl s
  · exact .refl s
  · exact .refl s
  · exact (Quiet.ulBlockAckn env s).keep
  · exact (Quiet.ulStop s).keep
  · exact (Quiet.ulStop s).keep
  · exact (Quiet.infoShort env s nr src).keep
  · exact (Quiet.ulStart1 s nr src).keep
  · exact (Quiet.ulStart2 env s nr src).keep
  · exact .refl s

theorem Keep.asyncRx (env : AEnv) (s : Stack) (nr : Nat) (src : List Byte) : Keep s (s.asyncRx env nr src).1 := by
  unfold Stack.asyncRx
  split
  · exact .refl s
  split
  · exact .refl s
  · exact .command env s nr _ src

theorem Keep.ctrlRx (env : AEnv) (s : Stack) (obj id : Nat) (src : List Byte) : Keep s (s.ctrlRx env obj id src) := by
  unfold Stack.ctrlRx
  split
  · have hf : ∀ (l : List Nat) (s : Stack), Keep s (l.foldl (ctrlStep env obj (asyncNrOfId id) src) s) := by
      intro l
      induction l with
      | nil => exact fun s => .refl s
      | cons k l ih =>
        intro s
        rw [List.foldl_cons]
        refine Keep.trans ?_ (ih _)
        unfold Stack.ctrlStep
        split
        · exact (Keep.asyncRx env s _ src).trans ⟨rfl, rfl⟩
        · exact .refl s
    exact hf _ s
  · exact .refl s

theorem Keep.dataRx (env : AEnv) (s : Stack) (obj dlc : Nat) (src : List Byte) : Keep s (s.dataRx env obj dlc src) := by
  unfold Stack.dataRx
  split
  · exact .port env s _
  · exact .refl s

theorem Keep.enqueue (env : AEnv) (s : Stack) (nr dlc : Nat) (src : List Byte) : Keep s (s.enqueue env nr dlc src).1 := by
  have hh : ∀ s : Stack, Keep s (handleQ env s).1 := by
    intro s
    unfold handleQ
    split
    · dsimp only
      split <;> exact ⟨rfl, rfl⟩
    · exact .refl s
  have hk : ∀ s : Stack, Keep s (handlerTx env s) := by
    intro s
    unfold handlerTx
    split
    · split
      · exact (hh s).trans ⟨rfl, rfl⟩
      · exact .refl s
    · exact .refl s
  unfold Stack.enqueue
  split
  · exact .refl s
  split
  · exact .refl s
  · dsimp only
    refine Keep.trans ?_ (hk _)
    exact ⟨rfl, rfl⟩

theorem Keep.retry (env : AEnv) (s : Stack) : Keep s (s.putcRetry env).1 := by
  unfold Stack.putcRetry
  have h := Keep.enqueue env s s.tnl.own s.tnl.tmp.length s.tnl.tmp
  generalize s.enqueue env s.tnl.own s.tnl.tmp.length s.tnl.tmp = r at h ⊢
  simp only
  split
  · exact h.trans ⟨rfl, rfl⟩
  · exact h

theorem Keep.putc (env : AEnv) (s : Stack) (x : Byte) : Keep s (s.putc env x).1 := by
  unfold Stack.putc
  split
  · exact .refl s
  split
  · simp only
    split
    · refine Keep.trans ?_ (.retry env _)
      exact ⟨rfl, rfl⟩
    · exact ⟨rfl, rfl⟩
  · exact .refl s

theorem Keep.processTx (env : AEnv) (s : Stack) (now : Nat) : Keep s (s.processTx env now).1 := by
  unfold Stack.processTx
  split
  · exact .refl s
  split
  · split
    · have h := Keep.enqueue env s s.tnl.own s.tnl.tmp.length s.tnl.tmp
      generalize s.enqueue env s.tnl.own s.tnl.tmp.length s.tnl.tmp = r at h ⊢
      simp only
      split
      · exact h.trans ⟨rfl, rfl⟩
      · exact h
    · exact .refl s
  · exact .refl s

/-! ## Functions of the search -/

/-- the index after the next switch -/
def succ4 (i : Nat) : Nat := if i < 3 then i + 1 else 0

theorem tab_rate {i : Nat} (h : i < 4) : Rate (tab.getD i 0) := by
  have : i = 0 ∨ i = 1 ∨ i = 2 ∨ i = 3 := by omega
  rcases this with rfl | rfl | rfl | rfl <;> decide

theorem succ4_lt (i : Nat) : succ4 i < 4 := by unfold succ4; split <;> omega
theorem succ4_mod {i : Nat} (h : i < 4) : succ4 i = (i + 1) % 4 := by unfold succ4; split <;> omega

theorem nodeMode_rc (env : AEnv) (s : Stack) (m : Mode) : (s.nodeMode env m).1.rc = s.rc := rfl
theorem nodeMode_link (env : AEnv) (s : Stack) (m : Mode) : (s.nodeMode env m).1.slv.link = (Slave.setMode env.toEnv s.slv.link m).1 := rfl
theorem nodeMode_res (env : AEnv) (s : Stack) (m : Mode) : (s.nodeMode env m).2 = (Slave.setMode env.toEnv s.slv.link m).2 := rfl
theorem baudRate_rc (env : AEnv) (s : Stack) (b : Nat) : (s.baudRate env b).1.rc = s.rc := rfl
theorem baudRate_link (env : AEnv) (s : Stack) (b : Nat) : (s.baudRate env b).1.slv.link = (Slave.setBaud s.slv.link b).1 := rfl
theorem baudRate_res (env : AEnv) (s : Stack) (b : Nat) : (s.baudRate env b).2 = (Slave.setBaud s.slv.link b).2 := rfl

/-- listening, on a given rate -/
structure Listens (env : AEnv) (l : Link) : Prop where
  mode : l.mode = .listen
  drv : (∀ k, env.modeOk k = true) → l.drv ≠ .start

theorem Listens.set (env : AEnv) (l : Link) : Listens env (Slave.setMode env.toEnv l .listen).1 := by
  refine ⟨(Slave.setMode_mode env.toEnv l .listen).1, fun h => ?_⟩
  rw [(Slave.setMode_ok h l .listen).2, if_neg (by decide)]
  split <;> decide

/-- `can_reconnect_next_baudrate` -/
theorem nextBaud_spec (env : AEnv) (s : Stack) (now : Nat) :
    (s.nextBaud env now).rc = { s.rc with
      idx := succ4 s.rc.idx, back := tab.getD (succ4 s.rc.idx) 0, next := u32 (now + env.ms2t env.swTime) } ∧
    Listens env (s.nextBaud env now).slv.link ∧
    (s.nextBaud env now).slv.link.hwRate = tab.getD (succ4 s.rc.idx) 0 ∧
    (s.nextBaud env now).slv.link.cur = tab.getD (succ4 s.rc.idx) 0 ∧
    (s.nextBaud env now).slv.link.stored = tab.getD (succ4 s.rc.idx) 0 ∧
    (s.nextBaud env now).slv.link.storedN = s.slv.link.storedN + 1 ∧
    (s.nextBaud env now).slv.link.startup = s.slv.link.startup := by
  have hb : Rate (tab.getD (succ4 s.rc.idx) 0) := tab_rate (succ4_lt _)
  obtain ⟨m1, m2, m3, m4, m5, m6⟩ := Slave.setMode_mode env.toEnv s.slv.link .stopped
  have e := Slave.setBaud_stopped (s.nodeMode env .stopped).1.slv.link (tab.getD (succ4 s.rc.idx) 0) m1 hb
  have hr : ((s.nodeMode env .stopped).1.baudRate env (tab.getD (succ4 s.rc.idx) 0)).2 = E.ok := congrArg Prod.snd e
  have hl : ((s.nodeMode env .stopped).1.baudRate env (tab.getD (succ4 s.rc.idx) 0)).1.slv.link = _ := congrArg Prod.fst e
  have hrc : ((s.nodeMode env .stopped).1.baudRate env (tab.getD (succ4 s.rc.idx) 0)).1.rc = s.rc := rfl
  have en : s.nextBaud env now = ((((s.nodeMode env .stopped).1.baudRate env (tab.getD (succ4 s.rc.idx) 0)).1.nodeMode env .listen).1).setR
      fun c => { c with idx := succ4 s.rc.idx, back := tab.getD (succ4 s.rc.idx) 0, next := u32 (now + env.ms2t env.swTime) } := by
    unfold Stack.nextBaud
    dsimp only
    rw [show (if s.rc.idx < 3 then s.rc.idx + 1 else 0) = succ4 s.rc.idx from rfl, show rcTab = tab from rfl]
    rw [if_pos hr]
  rw [en]
  generalize ((s.nodeMode env .stopped).1.baudRate env (tab.getD (succ4 s.rc.idx) 0)) = r at *
  obtain ⟨n1, n2, n3, n4, n5, n6⟩ := Slave.setMode_mode env.toEnv r.1.slv.link .listen
  refine ⟨?_, Listens.set env _, ?_, ?_, ?_, ?_, ?_⟩
  · exact congrArg (fun c : Recon => { c with
      idx := succ4 s.rc.idx, back := tab.getD (succ4 s.rc.idx) 0, next := u32 (now + env.ms2t env.swTime) }) hrc
  · show (Slave.setMode env.toEnv r.1.slv.link .listen).1.hwRate = _
    rw [n2, hl]
  · show (Slave.setMode env.toEnv r.1.slv.link .listen).1.cur = _
    rw [n3, hl]
  · show (Slave.setMode env.toEnv r.1.slv.link .listen).1.stored = _
    rw [n4, hl]
  · show (Slave.setMode env.toEnv r.1.slv.link .listen).1.storedN = _
    rw [n5, hl]
    show (Slave.setMode env.toEnv s.slv.link .stopped).1.storedN + 1 = _
    rw [m5]
  · show (Slave.setMode env.toEnv r.1.slv.link .listen).1.startup = _
    rw [n6, hl]
    exact m6

theorem notify_keep (s : Stack) (f : Option Nat) (c : Nat → ACall) : Keep s (s.notify f c) := by
  unfold Stack.notify
  split
  · exact .refl s
  · exact ⟨rfl, rfl⟩

theorem notify_log (s : Stack) (f : Option Nat) (c : Nat → ACall) :
    logOf (s.notify f c) = (match f with | some k => [.app (c k)] | none => []) ++ logOf s := by
  unfold Stack.notify
  split <;> rfl

theorem report_keep (env : AEnv) (s : Stack) (e : Option Err) : Keep s (s.reportUnaware env e) ∧ logOf (s.reportUnaware env e) = logOf s := by
  unfold Stack.reportUnaware
  split
  · exact ⟨.refl s, rfl⟩
  · split
    · exact ⟨⟨rfl, rfl⟩, rfl⟩
    · exact ⟨.refl s, rfl⟩

theorem rcDone_spec (env : AEnv) (s : Stack) (b : Nat) :
    Keep s (s.rcDone env b) ∧ logOf (s.rcDone env b) = stopCall s.rc b ++ logOf s := by
  unfold Stack.rcDone stopCall
  have k : ∀ (l : LState) (e : Option Err) (f : Option Nat) (c : Nat → ACall),
      Keep s (({ s with lcsa := l }.reportUnaware env e).notify f c) ∧
      logOf (({ s with lcsa := l }.reportUnaware env e).notify f c) =
        (match f with | some k => [.app (c k)] | none => []) ++ logOf s := by
    intro l e f c
    obtain ⟨a, b⟩ := report_keep env { s with lcsa := l } e
    refine ⟨Keep.trans a (notify_keep _ _ _), ?_⟩
    rw [notify_log, b]
  cases s.rc.cause with
  | startup => exact k _ _ _ _
  | ewrn => exact k _ _ _ _
  | boff => exact k _ _ _ _
  | noTraffic =>
    refine ⟨Keep.trans ⟨rfl, rfl⟩ (notify_keep _ _ _), ?_⟩
    dsimp only
    rw [notify_log]
    rfl
  | download => exact ⟨⟨rfl, rfl⟩, rfl⟩

/-- `can_reconnect_off` -/
theorem rcOff_spec (env : AEnv) (s : Stack) (now : Nat) :
    (s.rcOff env now).rc = { s.rc with
      process := false, state := .off, nr := u16 (s.rc.nr + 1), backTime := env.t2ms now } ∧
    (s.rcOff env now).slv.link.mode = .operational ∧
    (s.rcOff env now).slv.link.hwRate = (if Rate s.rc.back then s.rc.back else s.slv.link.hwRate) ∧
    (s.rcOff env now).slv.link.cur = (if Rate s.rc.back then s.rc.back else s.slv.link.cur) ∧
    (logOf (s.rcOff env now) = logOf s ∨ logOf (s.rcOff env now) = stopCall s.rc s.rc.back ++ logOf s) ∧
    ((∀ k, env.modeOk k = true) → logOf (s.rcOff env now) = stopCall s.rc s.rc.back ++ logOf s ∧
      (s.rcOff env now).slv.link.drv = .start) := by
  obtain ⟨m1, m2, m3, m4, m5, m6⟩ := Slave.setMode_mode env.toEnv s.slv.link .stopped
  have hb : ((s.setR fun c => { c with process := false }).nodeMode env .stopped).1.baudRate env s.rc.back =
      ((s.setR fun c => { c with process := false }).nodeMode env .stopped).1.baudRate env s.rc.back := rfl
  have key : ∀ r1 : Stack × Err, r1 = ((s.setR fun c => { c with process := false }).nodeMode env .stopped).1.baudRate env s.rc.back →
      r1.2 = E.ok ∧ r1.1.rc = { s.rc with process := false } ∧ logOf r1.1 = logOf s ∧
      r1.1.slv.link.hwRate = (if Rate s.rc.back then s.rc.back else s.slv.link.hwRate) ∧
      r1.1.slv.link.cur = (if Rate s.rc.back then s.rc.back else s.slv.link.cur) := by
    rintro r1 rfl
    have hl : (((s.setR fun c => { c with process := false }).nodeMode env .stopped).1.baudRate env s.rc.back).1.slv.link =
        (Slave.setBaud (Slave.setMode env.toEnv s.slv.link .stopped).1 s.rc.back).1 := rfl
    have hr : (((s.setR fun c => { c with process := false }).nodeMode env .stopped).1.baudRate env s.rc.back).2 =
        (Slave.setBaud (Slave.setMode env.toEnv s.slv.link .stopped).1 s.rc.back).2 := rfl
    rw [hl, hr]
    by_cases h : Rate s.rc.back
    · rw [Slave.setBaud_stopped _ _ m1 h, if_pos h, if_pos h]
      exact ⟨rfl, rfl, rfl, rfl, rfl⟩
    · rw [Slave.setBaud_other _ _ h, if_neg h, if_neg h]
      exact ⟨rfl, rfl, rfl, m2, m3⟩
  unfold Stack.rcOff
  dsimp only
  obtain ⟨h1, h2, h3, h4, h5⟩ := key _ rfl
  rw [if_pos h1]
  generalize ((s.setR fun c => { c with process := false }).nodeMode env .stopped).1.baudRate env s.rc.back = r at *
  obtain ⟨n1, n2, n3, -, -, -⟩ := Slave.setMode_mode env.toEnv r.1.slv.link .operational
  have hrc : (r.1.nodeMode env .operational).1.rc = r.1.rc := rfl
  have hlk : (r.1.nodeMode env .operational).1.slv.link = (Slave.setMode env.toEnv r.1.slv.link .operational).1 := rfl
  have hlg : logOf (r.1.nodeMode env .operational).1 = logOf r.1 := rfl
  have hres : (r.1.nodeMode env .operational).2 = (Slave.setMode env.toEnv r.1.slv.link .operational).2 := rfl
  have hd : (∀ k, env.modeOk k = true) → (Slave.setMode env.toEnv r.1.slv.link .operational).2 = E.ok ∧
      (Slave.setMode env.toEnv r.1.slv.link .operational).1.drv = .start := by
    intro h
    obtain ⟨a, b⟩ := Slave.setMode_ok h r.1.slv.link .operational
    exact ⟨a, by rw [b]; rfl⟩
  rw [← hlk] at n1 n2 n3 hd
  rw [← hres] at hd
  generalize r.1.nodeMode env .operational = q at *
  by_cases hq : q.2 = E.ok
  · rw [if_pos hq, if_pos hq]
    obtain ⟨⟨a1, a2⟩, b⟩ := rcDone_spec env ({ q.1 with lcsa := .running }.setR fun c => { c with state := .off, nr := u16 (c.nr + 1) }) s.rc.back
    generalize (({ q.1 with lcsa := .running }.setR fun c => { c with state := .off, nr := u16 (c.nr + 1) }).rcDone env s.rc.back) = w at *
    have e1 : w.rc = { s.rc with process := false, state := .off, nr := u16 (s.rc.nr + 1) } := by
      rw [a1]
      show { q.1.rc with state := .off, nr := u16 (q.1.rc.nr + 1) } = _
      rw [hrc, h2]
    have e2 : logOf w = stopCall s.rc s.rc.back ++ logOf s := by
      rw [b]
      show stopCall { q.1.rc with state := .off, nr := u16 (q.1.rc.nr + 1) } s.rc.back ++ logOf q.1 = _
      rw [hlg, h3, hrc, h2]
      rfl
    refine ⟨congrArg (fun c : Recon => { c with backTime := env.t2ms now }) e1, ?_, ?_, ?_, .inr e2, fun h => ⟨e2, ?_⟩⟩
    · show w.slv.link.mode = _
      rw [a2]; exact n1
    · show w.slv.link.hwRate = _
      rw [a2, ← h4]; exact n2
    · show w.slv.link.cur = _
      rw [a2, ← h5]; exact n3
    · show w.slv.link.drv = _
      rw [a2]; exact (hd h).2
  · rw [if_neg hq, if_neg hq]
    refine ⟨?_, n1, n2.trans h4, n3.trans h5, .inl (hlg.trans h3), fun h => absurd (hd h).1 hq⟩
    show { q.1.rc with state := .off, nr := u16 (q.1.rc.nr + 1), backTime := env.t2ms now } = _
    rw [hrc, h2]

/-- why a search ends; `c`: the variables of the search when it does -/
inductive EndWhy (env : AEnv) (s : Stack) (now : Nat) (intid : Pending) (lec : Lec) (c : Recon) : Prop
  /-- a frame was received at startup -/
  | suMsg (h : s.rc.state = .startup) (hm : intid = .msg) (hc : c = { s.rc with cause := .startup })
  /-- nothing happened at startup -/
  | suTime (h : s.rc.state = .startup) (hm : intid ≠ .msg) (ht : s.rc.time < now)
      (hc : c = { s.rc with cause := .noTraffic, back := s.slv.link.startup })
  /-- a frame was received -/
  | msg (h : s.rc.state = .on) (hm : intid = .msg) (hc : c = s.rc)
  /-- the driver reports no error -/
  | noErr (h : s.rc.state = .on) (hm : intid = .none) (hl : lec = .none) (hc : c = s.rc)
  /-- ten bit 0 errors -/
  | bit0 (h : s.rc.state = .on) (hl : lec = .bit0) (hb : 10 ≤ u16 (s.rc.bit0 + 1))
      (hc : c = { s.rc with bit0 := u16 (s.rc.bit0 + 1) })
  /-- the driver reports nothing -/
  | undef (h : s.rc.state = .on) (hl : lec = .undef) (hm : intid = .none) (hc : c = s.rc)

/-- what `li_can_slv_reconnect_process` does during a search -/
inductive Turn (env : AEnv) (now : Nat) (intid : Pending) (lec : Lec) (s s' : Stack) : Prop
  | ended (c : Recon) (w : EndWhy env s now intid lec c) (h : s' = (s.setR fun _ => c).rcOff env now)
  | switched (st : RState) (c : RCause) (b k : Nat)
      (hst : s.rc.state = .startup ∧ (st = .startup ∧ c = s.rc.cause ∨ st = .on ∧ c = .startup) ∨
        s.rc.state = .on ∧ st = .idle ∧ k = 0 ∧ c = s.rc.cause ∧ (s.rc.next < now ∧ intid ≠ .msg))
      (hrc : s'.rc = { s.rc with
        state := st, cause := c, bit0 := b, idle := k, idx := succ4 s.rc.idx, back := tab.getD (succ4 s.rc.idx) 0
        next := u32 (now + env.ms2t env.swTime) })
      (hm : intid ≠ .msg)
      (hl : Listens env s'.slv.link) (hw : s'.slv.link.hwRate = tab.getD (succ4 s.rc.idx) 0)
      (hs : s'.slv.link.stored = tab.getD (succ4 s.rc.idx) 0) (hn : s'.slv.link.storedN = s.slv.link.storedN + 1)
      (hlc : s'.lcsa = if s.rc.state = .startup ∧ st = .on then .reconnect else s.lcsa) (hlog : logOf s' = logOf s)
  | same (st : RState) (b k : Nat) (hst : s.rc.state = st ∨ s.rc.state = .idle ∧ st = .on)
      (hk : st = .idle → k ≤ env.idleMax ∨ k = s.rc.idle ∧ s.rc.state = .idle)
      (h : s' = s.setR fun c => { c with state := st, bit0 := b, idle := k })

theorem nextBaud_log (env : AEnv) (s : Stack) (now : Nat) : logOf (s.nextBaud env now) = logOf s := by
  unfold Stack.nextBaud
  dsimp only
  generalize (if s.rc.idx < 3 then s.rc.idx + 1 else 0) = i
  by_cases h : ((s.nodeMode env .stopped).1.baudRate env (rcTab.getD i 0)).2 = E.ok
  · rw [if_pos h]; rfl
  · rw [if_neg h]; rfl

theorem nextBaud_lcsa (env : AEnv) (s : Stack) (now : Nat) : (s.nextBaud env now).lcsa = s.lcsa := by
  unfold Stack.nextBaud
  dsimp only
  generalize (if s.rc.idx < 3 then s.rc.idx + 1 else 0) = i
  by_cases h : ((s.nodeMode env .stopped).1.baudRate env (rcTab.getD i 0)).2 = E.ok
  · rw [if_pos h]; rfl
  · rw [if_neg h]; rfl

theorem setR_eq (s : Stack) (f : Recon → Recon) (h : f s.rc = s.rc) : s.setR f = s := by
  unfold Stack.setR; rw [h]

theorem Turn.of_switch {s t : Stack} {now : Nat} {intid : Pending} {lec : Lec} (h : s.rc.state = .on) (hm : intid ≠ .msg)
    (b : Nat) (ht : t = s.setR fun c => { c with bit0 := b }) : Turn env now intid lec s (t.rcSwitch env now) := by
  subst ht
  unfold Stack.rcSwitch
  by_cases hn : s.rc.next < now
  · rw [if_pos (show (s.setR fun c => { c with bit0 := b }).rc.next < now from hn)]
    obtain ⟨e1, e2, e3, -, e5, e6, -⟩ := nextBaud_spec env (s.setR fun c => { c with bit0 := b }) now
    have e7 := nextBaud_log env (s.setR fun c => { c with bit0 := b }) now
    have e8 := nextBaud_lcsa env (s.setR fun c => { c with bit0 := b }) now
    generalize (s.setR fun c => { c with bit0 := b }).nextBaud env now = w at *
    exact .switched .idle s.rc.cause 0 0 (.inr ⟨h, rfl, rfl, rfl, hn, hm⟩)
      (congrArg (fun c : Recon => { c with bit0 := 0, idle := 0, state := .idle }) e1) hm e2 e3 e5 e6
      (by rw [if_neg (by rintro ⟨-, h⟩; cases h)]; exact e8) e7
  · rw [if_neg (show ¬ (s.setR fun c => { c with bit0 := b }).rc.next < now from hn)]
    exact .same .on b s.rc.idle (.inl h) (fun e => nomatch e) (by unfold Stack.setR; rw [← h])

theorem rcProcess_turn (env : AEnv) (s : Stack) (now : Nat) (intid : Pending) (lec : Lec) (hs : Searching s)
    (hp : s.rc.process = true) : Turn env now intid lec s (s.rcProcess env now intid lec) := by
  have self : ∀ {st}, s.rc.state = st → Turn env now intid lec s s := by
    intro st h
    exact .same st s.rc.bit0 s.rc.idle (.inl h) (fun e => .inr ⟨rfl, h.trans e⟩) (by unfold Stack.setR; rw [← h])
  unfold Stack.rcProcess
  rw [if_neg (by rw [hp]; decide)]
  rcases hs with h | h | h
  · rw [h]
    dsimp only
    by_cases h1 : intid = .msg
    · rw [if_pos h1]
      exact .ended _ (.suMsg h h1 rfl) rfl
    rw [if_neg h1]
    by_cases h2 : s.rc.time < now
    · rw [if_pos h2]
      exact .ended _ (.suTime h h1 h2 rfl) rfl
    rw [if_neg h2]
    by_cases h3 : intid = .lec ∨ (env.checkLec = true ∧ lec ≠ .none)
    · rw [if_pos h3]
      unfold Stack.rcOn
      dsimp only
      rw [if_neg (by decide)]
      obtain ⟨e1, e2, e3, -, e5, e6, -⟩ := nextBaud_spec env
        ({ (s.setR fun c => { c with cause := .startup, state := .on }) with lcsa := .reconnect }.setR fun c => { c with bit0 := 0 }) now
      have e7 := nextBaud_log env
        ({ (s.setR fun c => { c with cause := .startup, state := .on }) with lcsa := .reconnect }.setR fun c => { c with bit0 := 0 }) now
      have e8 := nextBaud_lcsa env
        ({ (s.setR fun c => { c with cause := .startup, state := .on }) with lcsa := .reconnect }.setR fun c => { c with bit0 := 0 }) now
      generalize Stack.nextBaud env _ now = w at *
      refine .switched .on .startup 0 s.rc.idle (.inl ⟨h, .inr ⟨rfl, rfl⟩⟩) ?_ h1 e2 e3 e5 e6
        (by rw [if_pos ⟨h, rfl⟩]; exact e8) e7
      refine (congrArg (fun c : Recon => { c with process := true }) e1).trans ?_
      rw [← hp]
      rfl
    rw [if_neg h3]
    by_cases h4 : s.rc.next < now
    · rw [if_pos h4]
      obtain ⟨e1, e2, e3, -, e5, e6, -⟩ := nextBaud_spec env s now
      refine .switched .startup s.rc.cause s.rc.bit0 s.rc.idle (.inl ⟨h, .inl ⟨rfl, rfl⟩⟩) ?_ h1 e2 e3 e5 e6
        (by rw [if_neg (by rintro ⟨-, h⟩; cases h)]; exact nextBaud_lcsa env s now)
        (nextBaud_log env s now)
      rw [e1, ← h]
    · rw [if_neg h4]
      exact self h
  · rw [h]
    dsimp only
    by_cases h1 : intid = .msg
    · rw [if_pos h1]
      exact .ended _ (.msg h h1 rfl) (congrArg (fun t => t.rcOff env now) (setR_eq s (fun _ => s.rc) rfl).symm)
    rw [if_neg h1]
    by_cases h2 : intid = .lec ∧ lec = .none
    · rw [if_pos h2]
      exact .of_switch h h1 s.rc.bit0 (setR_eq s _ rfl).symm
    rw [if_neg h2]
    have bad : Turn env now intid lec s ((s.setR fun c => { c with bit0 := 0 }).rcSwitch env now) := .of_switch h h1 0 rfl
    cases lec with
    | none =>
      have h5 : intid = .none := by
        cases intid with
        | none => rfl
        | lec => exact absurd ⟨rfl, rfl⟩ h2
        | msg => exact absurd rfl h1
      exact .ended _ (.noErr h h5 rfl rfl) (congrArg (fun t => t.rcOff env now) (setR_eq s (fun _ => s.rc) rfl).symm)
    | bit0 =>
      dsimp only
      split
      · next hb => exact .ended _ (.bit0 h rfl hb rfl) rfl
      · exact .same .on _ s.rc.idle (.inl h) (fun e => nomatch e) (by unfold Stack.setR; rw [← h])
    | undef =>
      dsimp only
      split
      · next hi => exact .ended _ (.undef h rfl hi rfl) (congrArg (fun t => t.rcOff env now) (setR_eq s (fun _ => s.rc) rfl).symm)
      · exact self h
    | stuff => exact bad
    | form => exact bad
    | ack => exact bad
    | bit1 => exact bad
    | crc => exact bad
  · rw [h]
    dsimp only
    split
    · exact .same .on s.rc.bit0 _ (.inr ⟨h, rfl⟩) (fun e => nomatch e) rfl
    · next hn => exact .same .idle s.rc.bit0 _ (.inl h) (fun _ => .inl (Nat.le_of_not_lt hn)) (by unfold Stack.setR; rw [← h])

end Stack
end LiCan
