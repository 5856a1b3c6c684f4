import Verif.Lemmas.Recon
import Verif.Lemmas.StackExample
/-! # Baud rate search -/
namespace LiCan
namespace Stack
open Spec
open Node (exMem)

variable {env : AEnv}

/-- a received frame -/
def isRx : SIn → Bool
  | .rx .. => true
  | _ => false

/-- the search after an input that is neither a processing nor a start -/
def SameRc (r : Bool) (s s' : Stack) : Prop :=
  ∃ p a b c d, (p = s.rc.pending ∨ r = true ∧ p = .msg) ∧ s'.rc = { s.rc with pending := p, onStart := a, onStop := b, suStart := c, suStop := d }

/-- the link after such an input, while a search is running -/
def SameLink (s s' : Stack) : Prop := ∃ c u, s'.slv.link = { s.slv.link with cur := c, startup := u }

theorem Keep.same {s s' : Stack} (h : Keep s s') : (∀ r, SameRc r s s') ∧ SameLink s s' :=
  ⟨fun _ => ⟨_, _, _, _, _, .inl rfl, h.1⟩, ⟨_, _, h.2⟩⟩

/-- invariant of the search -/
structure RInv (env : AEnv) (s : Stack) : Prop where
  idx : s.rc.idx < 4
  act : s.rc.state = .off ∨ Searching s
  listens : Searching s → Listens env s.slv.link
  proc : Searching s → s.rc.process = true
  rate : s.rc.state = .on ∨ s.rc.state = .idle →
    s.rc.back = tab.getD s.rc.idx 0 ∧ s.slv.link.hwRate = tab.getD s.rc.idx 0
  wait : s.rc.state = .idle → s.rc.idle ≤ env.idleMax

theorem RInv.keep {s s' : Stack} (h : RInv env s) (k : Keep s s') : RInv env s' := by
  obtain ⟨a, b⟩ := k
  refine ⟨by rw [a]; exact h.idx, ?_, ?_, ?_, ?_, by rw [a]; exact h.wait⟩
  · unfold Searching; rw [a]; exact h.act
  · unfold Searching; rw [a, b]; exact h.listens
  · unfold Searching; rw [a]; exact h.proc
  · rw [a, b]; exact h.rate

theorem not_searching {s : Stack} (h : s.rc.state = .off) : ¬ Searching s := by
  unfold Searching; rw [h]; rintro (h | h | h) <;> cases h

theorem RInv.off {s : Stack} (h : s.rc.state = .off) (hi : s.rc.idx < 4) : RInv env s := by
  refine ⟨hi, .inl h, fun k => absurd k (not_searching h), fun k => absurd k (not_searching h), fun k => ?_, fun k => ?_⟩
  · rw [h] at k
    rcases k with k | k <;> cases k
  · rw [h] at k; cases k

theorem api_same {s : Stack} {v : Slave} {i : In} (hi : isApi i = true) (hm : ∀ m, i ≠ .setMode m)
    (h : s.slv.step env.toEnv i = some v) : v.link = s.slv.link := by
  cases i with
  | frame => cases hi
  | trigger => cases hi
  | setBaud => cases hi
  | init => cases hi
  | setMode m => exact absurd rfl (hm m)
  | getPeriode =>
    injection h with h
    rw [← h]
    show (Slave.getPeriode env.toEnv s.slv).1.link = _
    unfold Slave.getPeriode
    repeat' (first | split | rfl | dsimp only)
  | setCycle t =>
    injection h with h
    rw [← h]
    show (Slave.setCycle env.toEnv s.slv t).1.link = _
    unfold Slave.setCycle
    split <;> rfl
  | table o => injection h with h; rw [← h]
  | allCb => injection h with h; rw [← h]
  | validCb typ nr f =>
    injection h with h
    rw [← h]
    rcases Slave.setModCb_keeps env.toEnv s.slv typ nr (fun v tp => { v with validCb := upd v.validCb tp f }) with e | ⟨tp, e⟩ <;> rw [e]
  | invalidCb typ nr f =>
    injection h with h
    rw [← h]
    rcases Slave.setModCb_keeps env.toEnv s.slv typ nr (fun v tp => { v with invalidCb := upd v.invalidCb tp f }) with e | ⟨tp, e⟩ <;> rw [e]
  | reqCb typ nr f =>
    injection h with h
    rw [← h]
    rcases Slave.setModCb_keeps env.toEnv s.slv typ nr (fun v tp => { v with reqCb := upd v.reqCb tp f }) with e | ⟨tp, e⟩ <;> rw [e]
  | firstCb => injection h with h; rw [← h]
  | firstStatusCb => injection h with h; rw [← h]
  | timeCb f => injection h with h; rw [← h]; unfold Slave.setTimeCb; split <;> rfl
  | resetCb f => injection h with h; rw [← h]; unfold Slave.setResetCb; split <;> rfl

theorem setSlv_rc (env : AEnv) (s : Stack) (v : Slave) : (s.setSlv env v).rc = s.rc := rfl
theorem setSlv_slv (env : AEnv) (s : Stack) (v : Slave) : (s.setSlv env v).slv = v := rfl
theorem nodeMode_lcsa (env : AEnv) (s : Stack) (m : Mode) : (s.nodeMode env m).1.lcsa = s.lcsa := rfl

theorem init_same (env : AEnv) (s : Stack) (baud : Nat) :
    (s.init env baud).1.rc = s.rc ∧ ∃ u, (s.init env baud).1.slv.link = { s.slv.link with startup := u } := by
  have hl : ∀ (v : Slave) (b : Nat), (Slave.init env.toEnv v b).1.link = { v.link with startup := b } := by
    intro v b; unfold Slave.init; dsimp only; split <;> rfl
  have key : ∀ (s1 : Stack) (b : Nat), Keep s s1 → (s1.setSlv env (s1.slv.init env.toEnv b).1).rc = s.rc ∧
      ∃ u, (s1.setSlv env (s1.slv.init env.toEnv b).1).slv.link = { s.slv.link with startup := u } := by
    intro s1 b h
    rw [setSlv_rc, setSlv_slv, hl, h.2]
    exact ⟨h.1, b, rfl⟩
  unfold Stack.init
  refine key _ _ ?_
  have h3 : ∀ s1 : Stack, Keep s s1 → ∀ p : Prop, ∀ [Decidable p], Keep s (if p then { s1 with lcsa := .download } else s1) := by
    intro s1 h p _
    split
    · exact h
    · exact h
  refine h3 _ ?_ _
  have h2 : ∀ s1 : Stack, Keep s s1 → ∀ p : Prop, ∀ [Decidable p], ∀ n, Keep s (if p then s1.setNode n else s1) := by
    intro s1 h p _ n
    split
    · exact h
    · exact h
  have hi : ∀ i : XInfo, Keep s { s with info := i } := fun _ => ⟨rfl, rfl⟩
  exact h2 _ (hi _) _ _

/-- inputs that are neither a processing nor a start -/
theorem other_same {s s' : Stack} {i : SIn} (h : s.step env i = some s') (h1 : ∀ now bus lec, i ≠ .process now bus lec)
    (h2 : ∀ now, i ≠ .start now) (h3 : noMode i = true) :
    SameRc (isRx i) s s' ∧ (s.slv.link.mode = .listen → s.rc.state ≠ .off → SameLink s s') := by
  have ret : ∀ {t : Stack}, some t = some s' → Keep s t →
      SameRc (isRx i) s s' ∧ (s.slv.link.mode = .listen → s.rc.state ≠ .off → SameLink s s') := by
    intro t e k
    rw [← Option.some.inj e]
    exact ⟨k.same.1 _, fun _ _ => k.same.2⟩
  cases i with
  | rx now obj dlc id ext data =>
    simp only [Stack.step, Stack.rx] at h
    split at h
    · injection h with h
      subst h
      exact ⟨⟨_, _, _, _, _, .inr ⟨rfl, rfl⟩, rfl⟩, fun _ _ => ⟨_, _, rfl⟩⟩
    next hoff =>
    have hoff : s.rc.state = .off := Decidable.byContradiction fun e => hoff e
    split at h
    · injection h with h
      subst h
      exact ⟨⟨_, _, _, _, _, .inr ⟨rfl, rfl⟩, rfl⟩, fun _ _ => ⟨_, _, rfl⟩⟩
    simp only [Option.map_eq_some_iff] at h
    obtain ⟨v, -, h⟩ := h
    subst h
    refine ⟨?_, fun _ e => absurd hoff e⟩
    obtain ⟨a, -⟩ := ((Keep.processTx env (Stack.setSlv env (s.setR fun c => { c with pending := .msg }) v) now).trans
      (Keep.ctrlRx env _ obj id data)).trans (Keep.dataRx env _ obj dlc data)
    exact ⟨_, _, _, _, _, .inr ⟨rfl, rfl⟩, a⟩
  | process now bus lec => exact absurd rfl (h1 now bus lec)
  | start now => exact absurd rfl (h2 now)
  | init baud =>
    injection h with h
    subst h
    obtain ⟨a, u, b⟩ := init_same env s baud
    exact ⟨⟨_, _, _, _, _, .inl rfl, a⟩, fun _ _ => ⟨_, _, b⟩⟩
  | setState l => exact ret h ⟨rfl, rfl⟩
  | setBaud b =>
    injection h with h
    subst h
    refine ⟨⟨_, _, _, _, _, .inl rfl, rfl⟩, fun hm _ => ?_⟩
    obtain ⟨c, e⟩ := Slave.setBaud_listen s.slv.link b hm
    exact ⟨c, s.slv.link.startup, e⟩
  | api i =>
    simp only [Stack.step] at h
    split at h
    · next hi =>
      simp only [Option.map_eq_some_iff] at h
      obtain ⟨v, hv, h⟩ := h
      subst h
      have := api_same hi (fun m e => by subst e; cases h3) hv
      exact ⟨⟨_, _, _, _, _, .inl rfl, rfl⟩, fun _ _ => ⟨_, _, this⟩⟩
    · exact ret h (.refl s)
  | hnd k f => exact ret h (by unfold Stack.setHnd; split <;> exact ⟨rfl, rfl⟩)
  | dlStart c => exact ret h (Quiet.dlStart env s c).keep
  | act a => exact ret h (Quiet.act env s a).keep
  | ulData fuel data =>
    have k := (Quiet.ulData env fuel s s' data h).keep
    exact ⟨k.same.1 _, fun _ _ => k.same.2⟩
  | putc x => exact ret h (.putc env s x)
  | retry =>
    refine ret h ?_
    split
    · exact .refl s
    · exact .retry env s
  | xonOff code =>
    refine ret h ?_
    unfold Stack.xonOff
    split
    · exact .refl s
    · exact .tx env s _ _
  | shutdown =>
    refine ret h ?_
    unfold Stack.tnlShutdown
    split
    · exact .refl s
    · exact ⟨rfl, rfl⟩
  | enqueue nr dlc src => exact ret h (.enqueue env s nr dlc src)
  | info o => exact ret h ⟨rfl, rfl⟩
  | rcCb k f =>
    injection h with h
    subst h
    cases k <;> (unfold setRcCb; dsimp only; split <;> exact ⟨⟨_, _, _, _, _, .inl rfl, rfl⟩, fun _ _ => ⟨_, _, rfl⟩⟩)

/-- the start of an online search -/
theorem rcError_spec (env : AEnv) (s : Stack) (now : Nat) (cause : RCause) :
    if s.rc.state = .off ∧ s.lcsa ≠ .stopped then
      (s.rcError env now cause).rc = { s.rc with
        state := .on, cause := cause, pending := .lec, bit0 := 0, process := true, idx := succ4 s.rc.idx
        back := tab.getD (succ4 s.rc.idx) 0, next := u32 (now + env.ms2t env.swTime) } ∧
      Listens env (s.rcError env now cause).slv.link ∧
      (s.rcError env now cause).slv.link.hwRate = tab.getD (succ4 s.rc.idx) 0
    else s.rcError env now cause = s := by
  unfold Stack.rcError
  by_cases h : s.rc.state = .off ∧ s.lcsa ≠ .stopped
  · rw [if_pos h, if_pos h]
    dsimp only
    unfold Stack.rcOn
    dsimp only
    rw [if_neg (by decide)]
    have hk := (notify_keep s s.rc.onStart .onStart).1
    generalize s.notify s.rc.onStart .onStart = s0 at hk ⊢
    obtain ⟨e1, e2, e3, -, -, -, -⟩ := nextBaud_spec env
      ({ (((s0.nodeMode env .stopped).1.nodeMode env .listen).1.setR fun c => { c with state := .on, cause := cause, pending := .lec }) with
        lcsa := .reconnect }.setR fun c => { c with bit0 := 0 }) now
    generalize hw : Stack.nextBaud env _ now = w at *
    refine ⟨?_, e2, ?_⟩
    · refine (congrArg (fun c : Recon => { c with process := true }) e1).trans ?_
      show { s0.rc with
        state := .on, cause := cause, pending := .lec, bit0 := 0, process := true, idx := succ4 s0.rc.idx
        back := tab.getD (succ4 s0.rc.idx) 0, next := u32 (now + env.ms2t env.swTime) } = _
      rw [hk]
    · refine e3.trans ?_
      show tab.getD (succ4 s0.rc.idx) 0 = _
      rw [hk]
  · rw [if_neg h, if_neg h]

theorem RInv.error {s : Stack} (h : s.rc.state = .off → s.rc.idx < 4) (h0 : s.rc.state ≠ .off → RInv env s) (now : Nat) (cause : RCause) :
    RInv env (s.rcError env now cause) := by
  have e := rcError_spec env s now cause
  by_cases hc : s.rc.state = .off ∧ s.lcsa ≠ .stopped
  · rw [if_pos hc] at e
    obtain ⟨e1, e2, e3⟩ := e
    have hs : (s.rcError env now cause).rc.state = .on := by rw [e1]
    refine ⟨?_, .inr (.inr (.inl hs)), fun _ => e2, fun _ => ?_, fun _ => ⟨?_, ?_⟩, fun k => by rw [hs] at k; cases k⟩
    · rw [e1]; exact succ4_lt _
    · rw [e1]
    · rw [e1]
    · rw [e3, e1]
  · rw [if_neg hc] at e
    rw [e]
    by_cases ho : s.rc.state = .off
    · exact .off ho (h ho)
    · exact h0 ho

theorem RInv.turn {s s' : Stack} {now : Nat} {intid : Pending} {lec : Lec} (h : RInv env s) (hs : Searching s)
    (t : Turn env now intid lec s s') : RInv env s' := by
  cases t with
  | ended c w e =>
    obtain ⟨e1, -⟩ := rcOff_spec env (s.setR fun _ => c) now
    rw [← e] at e1
    have hi : c.idx = s.rc.idx := by cases w <;> (rename_i hc; rw [hc])
    refine .off (by rw [e1]) ?_
    rw [e1]
    show c.idx < 4
    rw [hi]; exact h.idx
  | switched st c b k hst hrc hm hl hw hss hn hlc hlog =>
    have hss' : Searching s' := by
      unfold Searching
      rw [hrc]
      rcases hst with ⟨-, ⟨e, -⟩ | ⟨e, -⟩⟩ | ⟨-, e, -⟩ <;> rw [e]
      · exact .inl rfl
      · exact .inr (.inl rfl)
      · exact .inr (.inr rfl)
    refine ⟨by rw [hrc]; exact succ4_lt _, .inr hss', fun _ => hl, fun _ => ?_, fun _ => ⟨?_, ?_⟩, fun e => ?_⟩
    · rw [hrc]; exact h.proc hs
    · rw [hrc]
    · rw [hw, hrc]
    · rw [hrc] at e ⊢
      have e : st = .idle := e
      rcases hst with ⟨-, ⟨h1, -⟩ | ⟨h1, -⟩⟩ | ⟨-, -, h1, -⟩
      · rw [e] at h1; cases h1
      · rw [e] at h1; cases h1
      · show k ≤ _
        rw [h1]; exact Nat.zero_le _
  | same st b k hst hk e =>
    subst e
    have hst' : st = .startup → s.rc.state = .startup := by
      rintro rfl
      rcases hst with e | ⟨-, e⟩
      · exact e
      · cases e
    have hon : st = .on ∨ st = .idle → s.rc.state = .on ∨ s.rc.state = .idle := by
      intro hk
      rcases hst with e | ⟨e, -⟩
      · rw [e]; exact hk
      · exact .inr e
    have hss' : Searching (s.setR fun c => { c with state := st, bit0 := b, idle := k }) := by
      show st = .startup ∨ st = .on ∨ st = .idle
      rcases hst with e | ⟨-, e⟩
      · rw [← e]; exact hs
      · exact .inr (.inl e)
    exact ⟨h.idx, .inr hss', fun _ => h.listens hs, fun _ => h.proc hs, fun k => h.rate (hon k), fun e => by
      rcases hk e with g | ⟨g1, g2⟩
      · exact g
      · show k ≤ _
        rw [g1]; exact h.wait g2⟩

theorem RInv.busOff {s : Stack} (h : RInv env s) (ho : s.rc.state = .off) (now : Nat) (bus : BusState) (lec : Lec) :
    RInv env (s.hwBusOff env now bus lec) := by
  unfold Stack.hwBusOff
  split
  · refine RInv.error (fun _ => ?_) (fun e => ?_) now _
    · rw [nodeMode_rc, nodeMode_rc]; exact h.idx
    · rw [nodeMode_rc, nodeMode_rc] at e; exact absurd ho e
  · exact h

theorem RInv.listen {s : Stack} (h : RInv env s) :
    RInv env { s with slv := { s.slv with link := (Slave.drvMode env.toEnv s.slv.link .listen).1 } } := by
  have hm : (Slave.drvMode env.toEnv s.slv.link .listen).1.mode = s.slv.link.mode ∧
      (Slave.drvMode env.toEnv s.slv.link .listen).1.hwRate = s.slv.link.hwRate ∧
      ((∀ k, env.modeOk k = true) → (Slave.drvMode env.toEnv s.slv.link .listen).1.drv ≠ .start) := by
    unfold Slave.drvMode
    split
    · exact ⟨rfl, rfl, fun _ => (show DrvMode.listen ≠ .start by decide)⟩
    · next hn => exact ⟨rfl, rfl, fun hk => absurd (hk _) hn⟩
  generalize (Slave.drvMode env.toEnv s.slv.link .listen).1 = l at hm
  obtain ⟨m1, m2, m3⟩ := hm
  refine ⟨h.idx, h.act, fun k => ⟨m1.trans (h.listens k).mode, m3⟩, h.proc, fun k => ?_, h.wait⟩
  obtain ⟨a, b⟩ := h.rate k
  exact ⟨a, m2.trans b⟩

theorem RInv.passive {s : Stack} (h : RInv env s) (now : Nat) (bus : BusState) : RInv env (s.hwPassive env now bus) := by
  unfold Stack.hwPassive
  split
  · exact RInv.error (fun _ => h.listen.idx) (fun _ => h.listen) now _
  · exact h

theorem RInv.process {s : Stack} (h : RInv env s) (now : Nat) (bus : BusState) (lec : Lec) :
    RInv env (s.process env now bus lec) := by
  unfold Stack.process
  dsimp only
  refine RInv.keep ?_ (Keep.processTx env _ now)
  obtain ⟨p, hp⟩ := Slave.trigger_eq env.toEnv s.slv now
  rw [hp]
  have h : RInv env { s with slv := { s.slv with sync := { s.slv.sync with periode := p } } } := h.keep ⟨rfl, rfl⟩
  generalize ({ s with slv := { s.slv with sync := { s.slv.sync with periode := p } } } : Stack) = s at h ⊢
  unfold Stack.hwError
  dsimp only
  have h1 : RInv env (if (bus ≠ .active ∨ lec ≠ .none) ∧ s.rc.state = .off then (s.hwBusOff env now bus lec).hwPassive env now bus else s) := by
    split
    · next hc => exact RInv.passive (h.busOff hc.2 now bus lec) now bus
    · exact h
  generalize (if (bus ≠ .active ∨ lec ≠ .none) ∧ s.rc.state = .off then (s.hwBusOff env now bus lec).hwPassive env now bus else s) = t at h1 ⊢
  split
  · next ho =>
    have hs : Searching t := h1.act.resolve_left ho
    exact h1.turn hs (rcProcess_turn env t now _ lec hs (h1.proc hs))
  · exact h1

theorem startAck_keep (env : AEnv) (s : Stack) : Keep s (s.startAck env) := by
  unfold Stack.startAck
  split
  · have := ((Quiet.refl s).endA env s.info.d.comp.nr).keep
    exact this
  · exact .refl s

theorem RInv.start {s : Stack} (h : RInv env s) (now : Nat) : RInv env (s.start env now).1 := by
  unfold Stack.start
  have key : ∀ r : Stack × Err, RInv env r.1 →
      RInv env (if r.2 = E.ok then ({ r.1.startAck env with lcsa := .running }, E.ok) else r).1 := by
    intro r h
    split
    · refine h.keep ?_
      exact Keep.trans (startAck_keep env r.1) ⟨rfl, rfl⟩
    · exact h
  refine key _ ?_
  split
  · dsimp only
    split
    · exact .off rfl h.idx
    · exact .off rfl h.idx
  · dsimp only
    generalize hs1 : (Stack.nodeMode env (s.setR fun c => { c with state := .startup }) .stopped).1 = s1
    have h1 : s1.rc = { s.rc with state := .startup } := by rw [← hs1]; rfl
    have h2 : (s1.baudRate env s1.slv.link.startup).1.rc = { s.rc with state := .startup } := h1
    generalize (s1.baudRate env s1.slv.link.startup).1 = s2 at h2 ⊢
    have h3 : s2.rc.state = .startup := by rw [h2]
    have h4 : (s2.rcStartup env now).rc.state = .startup ∧ (s2.rcStartup env now).rc.idx = 0 ∧
        (s2.rcStartup env now).rc.process = true := by
      unfold Stack.rcStartup
      rw [if_pos h3]
      dsimp only
      have hk := (notify_keep s2 s2.rc.suStart .suStart).1
      generalize s2.notify s2.rc.suStart .suStart = s3 at hk ⊢
      unfold Stack.rcOn
      dsimp only
      rw [if_pos rfl]
      refine ⟨?_, rfl, rfl⟩
      show s3.rc.state = _
      rw [hk]; exact h3
    generalize s2.rcStartup env now = s4 at h4 ⊢
    obtain ⟨a, b, c⟩ := h4
    refine ⟨?_, .inr (.inl a), fun _ => Listens.set env _, fun _ => c, fun k => ?_, fun k => absurd (a.symm.trans k) (by decide)⟩
    · show s4.rc.idx < 4
      omega
    · have k : s4.rc.state = .on ∨ s4.rc.state = .idle := k
      rw [a] at k
      rcases k with k | k <;> cases k

theorem RInv.step {s s' : Stack} {i : SIn} (h : RInv env s) (hm : noMode i = true) (hs : s.step env i = some s') : RInv env s' := by
  by_cases h1 : ∃ now bus lec, i = .process now bus lec
  · obtain ⟨now, bus, lec, rfl⟩ := h1
    injection hs with hs
    rw [← hs]; exact h.process now bus lec
  by_cases h2 : ∃ now, i = .start now
  · obtain ⟨now, rfl⟩ := h2
    injection hs with hs
    rw [← hs]; exact h.start now
  obtain ⟨⟨p, a, b, c, d, -, e⟩, g⟩ := other_same hs (fun now bus lec e => h1 ⟨now, bus, lec, e⟩) (fun now e => h2 ⟨now, e⟩) hm
  by_cases ho : s.rc.state = .off
  · exact .off (by rw [e]; exact ho) (by rw [e]; exact h.idx)
  · have hse := h.act.resolve_left ho
    have hl := h.listens hse
    obtain ⟨x, u, g⟩ := g hl.mode ho
    refine ⟨by rw [e]; exact h.idx, .inr ?_, fun _ => ⟨?_, fun k => ?_⟩, fun _ => ?_, fun k => ?_, by rw [e]; exact h.wait⟩
    · unfold Searching; rw [e]; exact hse
    · rw [g]; exact hl.mode
    · rw [g]; exact hl.drv k
    · rw [e]; exact h.proc hse
    · rw [e] at k ⊢
      rw [g]
      exact h.rate k

/-! ## While a search lasts -/

theorem process_turn {s : Stack} (h : RInv env s) (hs : Searching s) (now : Nat) (bus : BusState) (lec : Lec) :
    ∃ t u, Keep s t ∧ Turn env now s.rc.pending lec t u ∧ Keep u (s.process env now bus lec) := by
  obtain ⟨p, hp⟩ := Slave.trigger_eq env.toEnv s.slv now
  have hk : Keep s { s with slv := { s.slv with sync := { s.slv.sync with periode := p } } } := ⟨rfl, rfl⟩
  have hr := h.keep hk
  unfold Stack.process
  rw [hp]
  dsimp only
  generalize ({ s with slv := { s.slv with sync := { s.slv.sync with periode := p } } } : Stack) = t at hk hr ⊢
  have ho : ¬ t.rc.state = .off := by rw [hk.1]; intro e; exact not_searching e hs
  have hst : Searching t := by unfold Searching; rw [hk.1]; exact hs
  refine ⟨t, _, hk, ?_, Keep.processTx env _ now⟩
  unfold Stack.hwError
  dsimp only
  rw [if_neg (c := (bus ≠ .active ∨ lec ≠ .none) ∧ t.rc.state = .off) (fun e => ho e.2), if_pos ho, hk.1]
  exact rcProcess_turn env t now _ lec hst (hr.proc hst)

/-- one input of a search that lasts -/
inductive Tick (s s' : Stack) (i : SIn) : Prop
  | switched (hi : ∃ now bus lec, i = .process now bus lec) (hp : s.rc.pending ≠ .msg)
      (hp' : s'.rc.pending = s.rc.pending)
      (hx : s'.rc.idx = succ4 s.rc.idx) (hb : s'.rc.back = tab.getD (succ4 s.rc.idx) 0)
      (hw : s'.slv.link.hwRate = tab.getD (succ4 s.rc.idx) 0) (hc : changed s s' = [tab.getD (succ4 s.rc.idx) 0])
      (hst : s.rc.state = .on → s'.rc.state = .idle) (hni : s.rc.state ≠ .idle)
  | same (hp : s'.rc.pending = s.rc.pending ∨ isRx i = true ∧ s'.rc.pending = .msg)
      (hx : s'.rc.idx = s.rc.idx) (hb : s'.rc.back = s.rc.back)
      (hw : s'.slv.link.hwRate = s.slv.link.hwRate) (hc : changed s s' = [])
      (hst : s.rc.state = s'.rc.state ∨ s.rc.state = .idle ∧ s'.rc.state = .on)

theorem off_of_turn_ended {s s' : Stack} {now : Nat} {c : Recon} (h : s' = (s.setR fun _ => c).rcOff env now) : s'.rc.state = .off := by
  rw [h, (rcOff_spec env (s.setR fun _ => c) now).1]

/-- what else is received during a search only sets the flag -/
theorem rx_search (env : AEnv) {s : Stack} (hs : Searching s) (now obj dlc id : Nat) (ext : Bool) (data : List Byte) :
    s.rx env now obj dlc id ext data = some (s.setR fun c => { c with pending := .msg }) := by
  unfold Stack.rx
  dsimp only
  rw [if_pos]
  intro e
  exact not_searching e hs

theorem changed_same {s s' : Stack} (h : s'.slv.link.storedN = s.slv.link.storedN) : changed s s' = [] := by
  unfold changed; rw [if_pos h]

theorem Tick.of_step {s s' : Stack} {i : SIn} (h : RInv env s) (hs : Searching s) (hs' : Searching s') (hm : noMode i = true)
    (hn : ∀ now, i ≠ .start now) (hr : s.step env i = some s') : Tick s s' i := by
  by_cases h1 : ∃ now bus lec, i = .process now bus lec
  · obtain ⟨now, bus, lec, rfl⟩ := h1
    injection hr with hr
    obtain ⟨t, u, k1, hT, k2⟩ := process_turn h hs now bus lec
    rw [hr] at k2
    cases hT with
    | ended c w e =>
      have := off_of_turn_ended e
      rw [← k2.1] at this
      exact absurd hs' (not_searching this)
    | switched st c b k hst hrc hm hl hw hss hnn hlc hlog =>
      have e : s'.rc = _ := k2.1.trans hrc
      refine .switched ⟨_, _, _, rfl⟩ hm (by rw [e, k1.1]) (by rw [e, k1.1]) (by rw [e, k1.1]) (by rw [k2.2, hw, k1.1]) ?_ ?_ ?_
      · unfold changed
        rw [if_neg (by rw [k2.2, hnn, k1.2]; omega), k2.2, hss, k1.1]
      · rw [e]
        rw [k1.1] at hst
        intro ho
        rcases hst with ⟨x, -⟩ | ⟨-, x, -⟩
        · rw [ho] at x; cases x
        · exact x
      · rw [k1.1] at hst
        intro ho
        rcases hst with ⟨x, -⟩ | ⟨x, -⟩ <;> (rw [ho] at x; cases x)
    | same st b k hst hk e =>
      subst e
      refine .same (.inl ?_) ?_ ?_ ?_ ?_ ?_
      · rw [k2.1]; show t.rc.pending = _; rw [k1.1]
      · rw [k2.1]; show t.rc.idx = _; rw [k1.1]
      · rw [k2.1]; show t.rc.back = _; rw [k1.1]
      · rw [k2.2]; show t.slv.link.hwRate = _; rw [k1.2]
      · refine changed_same ?_
        rw [k2.2]; show t.slv.link.storedN = _; rw [k1.2]
      · rw [k2.1]; rw [k1.1] at hst; exact hst
  · obtain ⟨⟨p, a, b, c, d, hp, e⟩, g⟩ := other_same hr (fun now bus lec e => h1 ⟨now, bus, lec, e⟩) hn hm
    obtain ⟨x, u, g⟩ := g (h.listens hs).mode (fun e => not_searching e hs)
    refine .same ?_ ?_ ?_ ?_ ?_ ?_
    · rw [e]; exact hp
    · rw [e]
    · rw [e]
    · rw [g]
    · refine changed_same ?_; rw [g]
    · rw [e]; exact .inl rfl

theorem RInv.boot (mem : Nat → List Byte) (info : XInfo) : RInv env (boot mem info) := .off rfl (show 0 < 4 by decide)

theorem RInv.run (is : List SIn) : ∀ {s s' : Stack}, RInv env s → (∀ i ∈ is, noMode i = true) → s.run env is = some s' → RInv env s' := by
  induction is with
  | nil => intro s s' h _ hr; injection hr with hr; rw [← hr]; exact h
  | cons i is ih =>
    intro s s' h hm hr
    simp only [Stack.run, Option.bind_eq_some_iff] at hr
    obtain ⟨s1, h1, h2⟩ := hr
    exact ih (h.step (hm i (List.mem_cons_self ..)) h1) (fun j hj => hm j (List.mem_cons_of_mem _ hj)) h2

theorem Lasts.searching {s : Stack} {is : List SIn} (h : Lasts env s is) : Searching s := by
  cases is with
  | nil => exact h
  | cons i is => exact h.1

/-- the rates of a search that lasts -/
theorem rates_eq (is : List SIn) : ∀ {s : Stack}, RInv env s → Lasts env s is →
    ∃ n, switches env s is = (List.range n).map fun k => tab.getD ((s.rc.idx + 1 + k) % 4) 0 := by
  induction is with
  | nil => exact fun _ _ => ⟨0, rfl⟩
  | cons i is ih =>
    intro s h hl
    obtain ⟨hs, hm, hn, hl⟩ := hl
    unfold switches
    cases hr : s.step env i with
    | none => exact ⟨0, rfl⟩
    | some s' =>
      have hl' := hl s' hr
      have hs' : Searching s' := Lasts.searching hl'
      obtain ⟨n, e⟩ := ih (h.step hm hr) hl'
      dsimp only
      rw [e]
      cases Tick.of_step h hs hs' hm hn hr with
      | switched _ _ _ hx _ _ hc _ _ =>
        refine ⟨n + 1, ?_⟩
        rw [hc, hx, List.range_succ_eq_map, List.map_cons, List.map_map]
        have h4 : s.rc.idx < 4 := h.idx
        rw [List.singleton_append]
        congr 1
        · rw [Nat.add_zero, succ4_mod h4]
        · refine List.map_congr_left fun k _ => ?_
          show _ = tab.getD ((s.rc.idx + 1 + (k + 1)) % 4) 0
          rw [succ4_mod h4]
          congr 1
          omega
      | same _ hx _ _ hc _ => exact ⟨n, by rw [hc, hx]; rfl⟩

/-! ## What processing adds to the log -/

/-- what was added are frames; none while the search is in its listening state -/
def Sends (s s' : Stack) : Prop :=
  ∃ l : List (Frame × Bool), logOf s' = l.map (fun p => .frame p.1 p.2) ++ logOf s ∧ (s.rc.state = .on → l = [])

theorem Sends.none {s s' : Stack} (h : logOf s' = logOf s) : Sends s s' := ⟨[], h, fun _ => rfl⟩

theorem Sends.enqueue (env : AEnv) (s : Stack) (nr dlc : Nat) (src : List Byte) : Sends s (s.enqueue env nr dlc src).1 := by
  have hk : ∀ s : Stack, Sends s (handlerTx env s) := by
    intro s
    unfold handlerTx
    by_cases hr : s.rc.state = .on
    · rw [if_neg (fun e => e hr)]; exact .none rfl
    rw [if_pos hr]
    by_cases hs : 0 < s.q.state
    · rw [if_pos hs]
      unfold handleQ
      rw [if_pos hs]
      unfold Node.send
      dsimp only
      refine ⟨[(s.q.buf s.q.read, env.sendOk s.slv.node.sendN)], ?_, fun e => absurd e hr⟩
      split <;> exact Slave.report_log _ _ _
    · rw [if_neg hs]; exact .none rfl
  unfold Stack.enqueue
  split
  · exact .none rfl
  split
  · exact .none rfl
  · exact hk _

theorem Sends.processTx (env : AEnv) (s : Stack) (now : Nat) : Sends s (s.processTx env now).1 := by
  unfold Stack.processTx
  split
  · exact .none rfl
  split
  · split
    · have h := Sends.enqueue env s s.tnl.own s.tnl.tmp.length s.tnl.tmp
      generalize s.enqueue env s.tnl.own s.tnl.tmp.length s.tnl.tmp = r at h ⊢
      simp only
      split
      · exact h
      · exact h
    · exact .none rfl
  · exact .none rfl

/-! ## Start and end of a search -/

/-- the end of a search -/
theorem process_end {s : Stack} (h : RInv env s) (hs : Searching s) (now : Nat) (bus : BusState) (lec : Lec)
    (he : ¬ Searching (s.process env now bus lec)) :
    ∃ c, EndWhy env s now s.rc.pending lec c ∧
      (s.process env now bus lec).slv.link.mode = .operational ∧
      (s.process env now bus lec).slv.link.hwRate = (if Rate c.back then c.back else s.slv.link.hwRate) ∧
      (s.process env now bus lec).slv.link.cur = (if Rate c.back then c.back else s.slv.link.cur) ∧
      (∃ l : List (Frame × Bool), ∃ m, logOf (s.process env now bus lec) = l.map (fun p => .frame p.1 p.2) ++ (m ++ logOf s) ∧
        (m = [] ∨ m = stopCall c c.back) ∧ ((∀ k, env.modeOk k = true) → m = stopCall c c.back)) ∧
      ((∀ k, env.modeOk k = true) → (s.process env now bus lec).slv.link.drv = .start) := by
  obtain ⟨p, hp⟩ := Slave.trigger_eq env.toEnv s.slv now
  have hk : Keep s { s with slv := { s.slv with sync := { s.slv.sync with periode := p } } } := ⟨rfl, rfl⟩
  have hr := h.keep hk
  have hlog : logOf { s with slv := { s.slv with sync := { s.slv.sync with periode := p } } } = logOf s := rfl
  unfold Stack.process at he ⊢
  rw [hp] at he ⊢
  dsimp only at he ⊢
  generalize ({ s with slv := { s.slv with sync := { s.slv.sync with periode := p } } } : Stack) = t at hk hr hlog he ⊢
  have ho : ¬ t.rc.state = .off := by rw [hk.1]; intro e; exact not_searching e hs
  have hst : Searching t := by unfold Searching; rw [hk.1]; exact hs
  have hT := rcProcess_turn env t now t.rc.pending lec hst (hr.proc hst)
  have hq : t.hwError env now bus lec = t.rcProcess env now t.rc.pending lec := by
    unfold Stack.hwError
    dsimp only
    rw [if_neg (c := (bus ≠ .active ∨ lec ≠ .none) ∧ t.rc.state = .off) (fun e => ho e.2), if_pos ho]
  rw [hq] at he ⊢
  have hk2 := Keep.processTx env (t.rcProcess env now t.rc.pending lec) now
  obtain ⟨l, hl, -⟩ := Sends.processTx env (t.rcProcess env now t.rc.pending lec) now
  generalize (Stack.processTx env (t.rcProcess env now t.rc.pending lec) now).1 = w at hk2 hl he ⊢
  have he' : ¬ Searching (t.rcProcess env now t.rc.pending lec) := by
    intro e; refine he ?_; unfold Searching; rw [hk2.1]; exact e
  generalize t.rcProcess env now t.rc.pending lec = u at hT hk2 hl he'
  cases hT with
  | ended c w e =>
    obtain ⟨-, e2, e3, e4, e5, e6⟩ := rcOff_spec env (t.setR fun _ => c) now
    rw [← e] at e2 e3 e4 e5 e6
    refine ⟨c, ?_, ?_, ?_, ?_, ?_, ?_⟩
    · have : EndWhy env t now t.rc.pending lec c := w
      rw [hk.1] at this
      cases this with
      | suMsg a b d => rw [hk.1] at a d; exact .suMsg a b d
      | suTime a b x d => rw [hk.1] at a x d; rw [hk.2] at d; exact .suTime a b x d
      | msg a b d => rw [hk.1] at a d; exact .msg a b d
      | noErr a b x d => rw [hk.1] at a d; exact .noErr a b x d
      | bit0 a b x d => rw [hk.1] at a x d; exact .bit0 a b x d
      | undef a b x d => rw [hk.1] at a d; exact .undef a b x d
    · rw [hk2.2]; exact e2
    · rw [hk2.2, ← hk.2]; exact e3
    · rw [hk2.2, ← hk.2]; exact e4
    · have e7 : logOf (t.setR fun _ => c) = logOf s := hlog
      rw [e7] at e5 e6
      rcases e5 with e5 | e5
      · refine ⟨l, [], by rw [hl, e5]; rfl, .inl rfl, fun k => ?_⟩
        have := (e6 k).1
        rw [e5] at this
        exact (List.self_eq_append_left.mp this).symm
      · exact ⟨l, _, by rw [hl, e5]; rfl, .inr rfl, fun _ => rfl⟩
    · intro k
      rw [hk2.2]; exact (e6 k).2
  | switched st c b k hst' hrc hm hl hw hss hn hlc hlog =>
    refine absurd ?_ he'
    unfold Searching
    rw [hrc]
    rcases hst' with ⟨-, ⟨e, -⟩ | ⟨e, -⟩⟩ | ⟨-, e, -⟩ <;> rw [e]
    · exact .inl rfl
    · exact .inr (.inl rfl)
    · exact .inr (.inr rfl)
  | same st b k hst' hk e =>
    subst e
    refine absurd ?_ he'
    show st = .startup ∨ st = .on ∨ st = .idle
    rcases hst' with e | ⟨-, e⟩
    · rw [← e]; exact hst
    · exact .inr (.inl e)

/-- the start of an online search -/
theorem process_start {s : Stack} (h : RInv env s) (ho : s.rc.state = .off) (now : Nat) (bus : BusState) (lec : Lec)
    (hs : Searching (s.process env now bus lec)) :
    (s.process env now bus lec).rc.pending = .lec ∧
    ((s.process env now bus lec).rc.state = .on ∨ (s.process env now bus lec).rc.state = .idle) := by
  obtain ⟨p, hp⟩ := Slave.trigger_eq env.toEnv s.slv now
  have hk : Keep s { s with slv := { s.slv with sync := { s.slv.sync with periode := p } } } := ⟨rfl, rfl⟩
  have hr := h.keep hk
  unfold Stack.process at hs ⊢
  rw [hp] at hs ⊢
  dsimp only at hs ⊢
  generalize ({ s with slv := { s.slv with sync := { s.slv.sync with periode := p } } } : Stack) = t at hk hr hs ⊢
  have ho : t.rc.state = .off := by rw [hk.1]; exact ho
  have hk2 := Keep.processTx env (t.hwError env now bus lec) now
  generalize (Stack.processTx env (t.hwError env now bus lec) now).1 = w at hk2 hs ⊢
  have hs : Searching (t.hwError env now bus lec) := by unfold Searching; rw [← hk2.1]; exact hs
  rw [hk2.1]
  have key : ∀ (x : Stack) (n : Nat) (c : RCause), x.rc.state = .off ∨ x.rc.state = .on ∧ x.rc.pending = .lec →
      (x.rcError env n c).rc.state = .off ∨ (x.rcError env n c).rc.state = .on ∧ (x.rcError env n c).rc.pending = .lec := by
    intro x n c hx
    have e := rcError_spec env x n c
    by_cases hc : x.rc.state = .off ∧ x.lcsa ≠ .stopped
    · rw [if_pos hc] at e
      rw [e.1]
      exact .inr ⟨rfl, rfl⟩
    · rw [if_neg hc] at e
      rw [e]; exact hx
  have hb : (t.hwBusOff env now bus lec).rc.state = .off ∨
      (t.hwBusOff env now bus lec).rc.state = .on ∧ (t.hwBusOff env now bus lec).rc.pending = .lec := by
    unfold Stack.hwBusOff
    split
    · refine key _ _ _ (.inl ?_)
      rw [nodeMode_rc, nodeMode_rc]; exact ho
    · exact .inl ho
  have hq : ((t.hwBusOff env now bus lec).hwPassive env now bus).rc.state = .off ∨
      ((t.hwBusOff env now bus lec).hwPassive env now bus).rc.state = .on ∧
      ((t.hwBusOff env now bus lec).hwPassive env now bus).rc.pending = .lec := by
    generalize t.hwBusOff env now bus lec = y at hb
    unfold Stack.hwPassive
    split
    · exact key _ _ _ hb
    · exact hb
  have hi := RInv.passive (hr.busOff ho now bus lec) now bus
  unfold Stack.hwError at hs ⊢
  dsimp only at hs ⊢
  generalize (t.hwBusOff env now bus lec).hwPassive env now bus = y at hq hi hs ⊢
  by_cases hc : (bus ≠ .active ∨ lec ≠ .none) ∧ t.rc.state = .off
  · rw [if_pos hc] at hs ⊢
    by_cases hy : y.rc.state = .off
    · rw [if_neg (fun e => e hy)] at hs
      exact absurd hs (not_searching hy)
    · rw [if_pos hy] at hs ⊢
      obtain ⟨h1, h2⟩ := hq.resolve_left hy
      have hys : Searching y := .inr (.inl h1)
      have hT := rcProcess_turn env y now y.rc.pending lec hys (hi.proc hys)
      generalize y.rcProcess env now y.rc.pending lec = u at hT hs
      cases hT with
      | ended c w e => exact absurd hs (not_searching (off_of_turn_ended e))
      | switched st c b k hst hrc hm hl hw hss hnn hlc hlog =>
        rw [hrc]
        refine ⟨h2, ?_⟩
        rcases hst with ⟨x, -⟩ | ⟨-, x, -⟩
        · rw [h1] at x; cases x
        · exact .inr x
      | same st b k hst hk e =>
        subst e
        refine ⟨h2, ?_⟩
        rcases hst with x | ⟨x, -⟩
        · rw [h1] at x; exact .inl x.symm
        · rw [h1] at x; cases x
  · rw [if_neg hc, if_neg (fun e => e ho)] at hs
    exact absurd hs (not_searching ho)

/-! ## Histories of a search -/

theorem lasts_run (is : List SIn) : ∀ {s s' : Stack}, RInv env s → Lasts env s is → s.run env is = some s' →
    RInv env s' ∧ Searching s' := by
  induction is with
  | nil => intro s s' h hl hr; injection hr with hr; rw [← hr]; exact ⟨h, hl⟩
  | cons i is ih =>
    intro s s' h hl hr
    simp only [Stack.run, Option.bind_eq_some_iff] at hr
    obtain ⟨s1, h1, h2⟩ := hr
    exact ih (h.step hl.2.1 h1) (hl.2.2.2 s1 h1) h2

/-- after a switch the rate in use is the one that would be reported -/
theorem lasts_rate (is : List SIn) : ∀ {s s' : Stack}, RInv env s → Lasts env s is → s.run env is = some s' →
    (s.rc.back = tab.getD s.rc.idx 0 ∧ s.slv.link.hwRate = tab.getD s.rc.idx 0) ∨ switches env s is ≠ [] →
    s'.rc.back = tab.getD s'.rc.idx 0 ∧ s'.slv.link.hwRate = tab.getD s'.rc.idx 0 := by
  induction is with
  | nil =>
    intro s s' h hl hr hc
    injection hr with hr
    rw [← hr]
    exact hc.resolve_right (fun e => e rfl)
  | cons i is ih =>
    intro s s' h hl hr hc
    simp only [Stack.run, Option.bind_eq_some_iff] at hr
    obtain ⟨s1, h1, h2⟩ := hr
    obtain ⟨hs, hm, hn, hl⟩ := hl
    have hl' := hl s1 h1
    refine ih (h.step hm h1) hl' h2 ?_
    unfold switches at hc
    rw [h1] at hc
    dsimp only at hc
    cases Tick.of_step h hs (Lasts.searching hl') hm hn h1 with
    | switched _ _ _ hx hb hw _ _ _ => exact .inl ⟨by rw [hx]; exact hb, by rw [hx]; exact hw⟩
    | same _ hx hb hw hc' _ =>
      rw [hc'] at hc
      rcases hc with hc | hc
      · left; rw [hx, hb, hw]; exact hc
      · right; exact hc

theorem lasts_msg (is : List SIn) : ∀ {s : Stack}, RInv env s → Lasts env s is → s.rc.pending = .msg → switches env s is = [] := by
  induction is with
  | nil => intros; rfl
  | cons i is ih =>
    intro s h hl hp
    obtain ⟨hs, hm, hn, hl⟩ := hl
    unfold switches
    cases h1 : s.step env i with
    | none => rfl
    | some s1 =>
      have hl' := hl s1 h1
      dsimp only
      cases Tick.of_step h hs (Lasts.searching hl') hm hn h1 with
      | switched _ hp' => exact absurd hp hp'
      | same hq _ _ _ hc _ =>
        rw [hc, ih (h.step hm h1) hl']
        · rfl
        · rcases hq with hq | ⟨-, hq⟩
          · rw [hq]; exact hp
          · exact hq

theorem lasts_stays (is : List SIn) : ∀ {s s' : Stack}, RInv env s → Lasts env s is → s.run env is = some s' →
    s.rc.pending = .msg → s'.rc.pending = .msg := by
  induction is with
  | nil => intro s s' _ _ hr hp; injection hr with hr; rw [← hr]; exact hp
  | cons i is ih =>
    intro s s' h hl hr hp
    simp only [Stack.run, Option.bind_eq_some_iff] at hr
    obtain ⟨s1, h1, h2⟩ := hr
    obtain ⟨hs, hm, hn, hl⟩ := hl
    have hl' := hl s1 h1
    refine ih (h.step hm h1) hl' h2 ?_
    cases Tick.of_step h hs (Lasts.searching hl') hm hn h1 with
    | switched _ _ hq => rw [hq]; exact hp
    | same hq _ _ _ hc _ =>
      rcases hq with hq | ⟨-, hq⟩
      · rw [hq]; exact hp
      · exact hq

/-- the flag of a received frame was set after the last switch -/
theorem lasts_pending (is : List SIn) : ∀ {s s' : Stack}, RInv env s → Lasts env s is → s.run env is = some s' →
    s.rc.pending ≠ .msg →
    (s'.rc.pending = .msg → ∃ is1 j is2 s1, is = is1 ++ j :: is2 ∧ isRx j = true ∧ s.run env is1 = some s1 ∧
      switches env s1 (j :: is2) = []) ∧
    (s'.rc.pending ≠ .msg → s'.rc.pending = s.rc.pending) := by
  induction is with
  | nil =>
    intro s s' h hl hr hp
    injection hr with hr
    rw [← hr]
    exact ⟨fun e => absurd e hp, fun _ => rfl⟩
  | cons i is ih =>
    intro s s' h hl hr hp
    simp only [Stack.run, Option.bind_eq_some_iff] at hr
    obtain ⟨s1, h1, h2⟩ := hr
    obtain ⟨hs, hm, hn, hl⟩ := hl
    have hl' := hl s1 h1
    have hT := Tick.of_step h hs (Lasts.searching hl') hm hn h1
    have later : s1.rc.pending = s.rc.pending → _ := fun e => ih (h.step hm h1) hl' h2 (by rw [e]; exact hp)
    have conv : ∀ {x : Prop}, s1.rc.pending = s.rc.pending →
        (s'.rc.pending = .msg → ∃ is1 j is2 s2, i :: is = is1 ++ j :: is2 ∧ isRx j = true ∧ s.run env is1 = some s2 ∧
          switches env s2 (j :: is2) = []) ∧
        (s'.rc.pending ≠ .msg → s'.rc.pending = s.rc.pending) := by
      intro _ e
      obtain ⟨a, b⟩ := later e
      refine ⟨fun k => ?_, fun k => (b k).trans e⟩
      obtain ⟨is1, j, is2, s2, c1, c2, c3, c4⟩ := a k
      refine ⟨i :: is1, j, is2, s2, by rw [c1]; rfl, c2, ?_, c4⟩
      simp only [Stack.run, Option.bind_eq_some_iff]
      exact ⟨s1, h1, c3⟩
    cases hT with
    | switched _ _ hp' => exact conv (x := True) hp'
    | same hq hx hb hw hc _ =>
      rcases hq with hq | ⟨hi, hq⟩
      · exact conv (x := True) hq
      · refine ⟨fun _ => ⟨[], i, is, s, rfl, hi, rfl, ?_⟩, fun k => absurd ?_ k⟩
        · unfold switches
          rw [h1]
          dsimp only
          rw [hc, lasts_msg is (h.step hm h1) hl' hq]
          rfl
        · clear later conv
          exact lasts_stays is (h.step hm h1) hl' h2 hq

theorem lasts_on (is : List SIn) : ∀ {s s' : Stack}, RInv env s → Lasts env s is → s.run env is = some s' →
    s.rc.state = .on ∨ s.rc.state = .idle → s'.rc.state = .on ∨ s'.rc.state = .idle := by
  induction is with
  | nil => intro s s' _ _ hr hp; injection hr with hr; rw [← hr]; exact hp
  | cons i is ih =>
    intro s s' h hl hr hp
    simp only [Stack.run, Option.bind_eq_some_iff] at hr
    obtain ⟨s1, h1, h2⟩ := hr
    obtain ⟨hs, hm, hn, hl⟩ := hl
    have hl' := hl s1 h1
    refine ih (h.step hm h1) hl' h2 ?_
    cases Tick.of_step h hs (Lasts.searching hl') hm hn h1 with
    | switched _ _ _ _ _ _ _ ha hb =>
      rcases hp with hp | hp
      · exact .inr (ha hp)
      · exact absurd hp hb
    | same _ _ _ _ _ hc =>
      rcases hc with hc | ⟨-, hc⟩
      · rw [← hc]; exact hp
      · exact .inl hc

/-! ## Progress -/

theorem process_rc (env : AEnv) {s : Stack} (hs : Searching s) (now : Nat) (bus : BusState) (lec : Lec) :
    ∃ t, Keep s t ∧ Keep (t.rcProcess env now s.rc.pending lec) (s.process env now bus lec) := by
  obtain ⟨p, hp⟩ := Slave.trigger_eq env.toEnv s.slv now
  have hk : Keep s { s with slv := { s.slv with sync := { s.slv.sync with periode := p } } } := ⟨rfl, rfl⟩
  unfold Stack.process
  rw [hp]
  dsimp only
  generalize ({ s with slv := { s.slv with sync := { s.slv.sync with periode := p } } } : Stack) = t at hk ⊢
  have ho : ¬ t.rc.state = .off := by rw [hk.1]; intro e; exact not_searching e hs
  refine ⟨t, hk, ?_⟩
  unfold Stack.hwError
  dsimp only
  rw [if_neg (c := (bus ≠ .active ∨ lec ≠ .none) ∧ t.rc.state = .off) (fun e => ho e.2), if_pos ho, hk.1]
  exact Keep.processTx env _ now

/-- one processing that switches -/
theorem on_switch {s : Stack} (hs : s.rc.state = .on) (hp : s.rc.process = true) (hm : s.rc.pending ≠ .msg) (c : Call)
    (ht : s.rc.next < c.now) (hb : Bad c.lec = true) :
    (s.process env c.now c.bus c.lec).rc = { s.rc with
      state := .idle, bit0 := 0, idle := 0, idx := succ4 s.rc.idx, back := tab.getD (succ4 s.rc.idx) 0
      next := u32 (c.now + env.ms2t env.swTime) } ∧
    changed s (s.process env c.now c.bus c.lec) = [tab.getD (succ4 s.rc.idx) 0] := by
  obtain ⟨t, k1, k2⟩ := process_rc env (.inr (.inl hs)) c.now c.bus c.lec
  have e : t.rcProcess env c.now s.rc.pending c.lec = (t.setR fun x => { x with bit0 := 0 }).rcSwitch env c.now := by
    unfold Stack.rcProcess
    rw [k1.1, hp, hs]
    dsimp only
    rw [if_neg (by decide), if_neg hm]
    rw [if_neg (by rintro ⟨-, e⟩; rw [e] at hb; cases hb)]
    generalize c.lec = lec at hb ⊢
    cases lec <;> first | rfl | cases hb
  rw [e] at k2
  unfold Stack.rcSwitch at k2
  rw [if_pos (show (t.setR fun x => { x with bit0 := 0 }).rc.next < c.now by show t.rc.next < _; rw [k1.1]; exact ht)] at k2
  obtain ⟨e1, -, -, -, e5, e6, -⟩ := nextBaud_spec env (t.setR fun x => { x with bit0 := 0 }) c.now
  generalize (t.setR fun x => { x with bit0 := 0 }).nextBaud env c.now = w at *
  have e1' : w.rc = { t.rc with
      bit0 := 0, idx := succ4 t.rc.idx, back := tab.getD (succ4 t.rc.idx) 0, next := u32 (c.now + env.ms2t env.swTime) } := e1
  have h1 : (s.process env c.now c.bus c.lec).rc = { w.rc with bit0 := 0, idle := 0, state := .idle } := k2.1
  have h2 : (s.process env c.now c.bus c.lec).slv.link = w.slv.link := k2.2
  have e5' : w.slv.link.stored = tab.getD (succ4 t.rc.idx) 0 := e5
  have e6' : w.slv.link.storedN = t.slv.link.storedN + 1 := e6
  rw [k1.1] at e1' e5'
  rw [k1.2] at e6'
  refine ⟨by rw [h1, e1'], ?_⟩
  unfold changed
  rw [h2, e6', if_neg (by omega), e5']

/-- one processing while waiting -/
theorem idle_wait {s : Stack} (hs : s.rc.state = .idle) (hp : s.rc.process = true) (c : Call) :
    (s.process env c.now c.bus c.lec).rc = { s.rc with
      idle := u16 (s.rc.idle + 1), state := if env.idleMax < u16 (s.rc.idle + 1) then .on else .idle } ∧
    changed s (s.process env c.now c.bus c.lec) = [] := by
  obtain ⟨t, k1, k2⟩ := process_rc env (.inr (.inr hs)) c.now c.bus c.lec
  have e : t.rcProcess env c.now s.rc.pending c.lec = t.setR fun x => { x with
      idle := u16 (x.idle + 1), state := if env.idleMax < u16 (x.idle + 1) then .on else .idle } := by
    unfold Stack.rcProcess
    rw [k1.1, hp, hs]
    dsimp only
    rw [if_neg (by decide)]
    by_cases h : env.idleMax < u16 (t.rc.idle + 1)
    · rw [if_pos (show env.idleMax < (t.setR fun x => { x with idle := u16 (x.idle + 1) }).rc.idle from h)]
      show { t with rc := { t.rc with idle := u16 (t.rc.idle + 1), state := .on } } = { t with rc := { t.rc with
        idle := u16 (t.rc.idle + 1), state := if env.idleMax < u16 (t.rc.idle + 1) then .on else .idle } }
      rw [if_pos h]
    · rw [if_neg (show ¬ env.idleMax < (t.setR fun x => { x with idle := u16 (x.idle + 1) }).rc.idle from h)]
      show { t with rc := { t.rc with idle := u16 (t.rc.idle + 1) } } = { t with rc := { t.rc with
        idle := u16 (t.rc.idle + 1), state := if env.idleMax < u16 (t.rc.idle + 1) then .on else .idle } }
      rw [if_neg h, ← hs, k1.1]
  rw [e] at k2
  have h1 : (s.process env c.now c.bus c.lec).rc = { t.rc with
      idle := u16 (t.rc.idle + 1), state := if env.idleMax < u16 (t.rc.idle + 1) then .on else .idle } := k2.1
  have h2 : (s.process env c.now c.bus c.lec).slv.link = t.slv.link := k2.2
  refine ⟨by rw [h1, k1.1], ?_⟩
  refine changed_same ?_
  rw [h2, k1.2]

theorem idle_run (hmax : env.idleMax + 1 < 65536) (cs : List Call) : ∀ {s : Stack}, s.rc.state = .idle → s.rc.process = true →
    s.rc.idle ≤ env.idleMax → cs.length + s.rc.idle = env.idleMax + 1 →
    ∃ s', s.run env (cs.map Call.sin) = some s' ∧ switches env s (cs.map Call.sin) = [] ∧
      s'.rc = { s.rc with state := .on, idle := env.idleMax + 1 } := by
  induction cs with
  | nil => intro s _ _ hi hl; simp at hl; omega
  | cons c cs ih =>
    intro s hs hp hi hl
    rw [List.length_cons] at hl
    obtain ⟨e1, e2⟩ := idle_wait (env := env) hs hp c
    have hu : u16 (s.rc.idle + 1) = s.rc.idle + 1 := Nat.mod_eq_of_lt (by omega)
    rw [hu] at e1
    have hstep : s.step env c.sin = some (s.process env c.now c.bus c.lec) := rfl
    have hrun : s.run env ((c :: cs).map Call.sin) = (s.process env c.now c.bus c.lec).run env (cs.map Call.sin) := by
      simp only [List.map_cons, Stack.run, hstep, Option.bind_some]
    have hrates : switches env s ((c :: cs).map Call.sin) = switches env (s.process env c.now c.bus c.lec) (cs.map Call.sin) := by
      rw [List.map_cons, switches, hstep]
      dsimp only
      rw [e2]; rfl
    rw [hrun, hrates]
    generalize s.process env c.now c.bus c.lec = s1 at e1 ⊢
    by_cases hd : env.idleMax < s.rc.idle + 1
    · have hc : cs = [] := List.eq_nil_of_length_eq_zero (by omega)
      subst hc
      refine ⟨s1, rfl, rfl, ?_⟩
      rw [e1, if_pos hd, show s.rc.idle + 1 = env.idleMax + 1 by omega]
    · rw [if_neg hd] at e1
      obtain ⟨s', a, b, d⟩ := ih (s := s1) (by rw [e1]) (by rw [e1]; exact hp) (by rw [e1]; show s.rc.idle + 1 ≤ _; omega)
        (by rw [e1]; show cs.length + (s.rc.idle + 1) = _; omega)
      refine ⟨s', a, b, ?_⟩
      rw [d, e1]

theorem run_app (a b : List SIn) : ∀ s : Stack, s.run env (a ++ b) = (s.run env a).bind fun s1 => s1.run env b := by
  induction a with
  | nil => intro s; rfl
  | cons i a ih =>
    intro s
    simp only [List.cons_append, Stack.run]
    cases s.step env i with
    | none => rfl
    | some s1 => exact ih s1

theorem rates_append (a b : List SIn) : ∀ {s s1 : Stack}, s.run env a = some s1 →
    switches env s (a ++ b) = switches env s a ++ switches env s1 b := by
  induction a with
  | nil => intro s s1 h; injection h with h; rw [h]; rfl
  | cons i a ih =>
    intro s s1 h
    simp only [Stack.run, Option.bind_eq_some_iff] at h
    obtain ⟨s2, h1, h2⟩ := h
    rw [List.cons_append, switches, switches, h1]
    dsimp only
    rw [ih h2, List.append_assoc]

theorem rounds_run (hmax : env.idleMax + 1 < 65536) (rs : List (Call × List Call)) : ∀ {s : Stack}, s.rc.idx < 4 →
    s.rc.state = .on → s.rc.process = true → s.rc.pending ≠ .msg → Rounds env s.rc.next rs →
    ∃ s', s.run env (Rounds.ins rs) = some s' ∧ s'.rc.state = .on ∧
      switches env s (Rounds.ins rs) = (List.range rs.length).map fun k => tab.getD ((s.rc.idx + 1 + k) % 4) 0 := by
  induction rs with
  | nil => intro s _ hs _ _ _; exact ⟨s, rfl, hs, rfl⟩
  | cons r rs ih =>
    obtain ⟨c, cs⟩ := r
    intro s hx hs hp hm hr
    obtain ⟨ht, hb, hl, hr⟩ := hr
    obtain ⟨e1, e2⟩ := on_switch (env := env) hs hp hm c ht hb
    have hstep : s.step env c.sin = some (s.process env c.now c.bus c.lec) := rfl
    generalize s.process env c.now c.bus c.lec = s1 at e1 e2 hstep
    obtain ⟨s2, a, b, d⟩ := idle_run (env := env) hmax cs (s := s1) (by rw [e1]) (by rw [e1]; exact hp) (by rw [e1]; exact Nat.zero_le _)
      (by rw [e1]; exact hl)
    have hrun : s.run env (c.sin :: cs.map Call.sin) = some s2 := by
      simp only [Stack.run, hstep, Option.bind_some]; exact a
    have hrates : switches env s (c.sin :: cs.map Call.sin) = [tab.getD (succ4 s.rc.idx) 0] := by
      rw [switches, hstep]
      dsimp only
      rw [e2, b]; rfl
    rw [e1] at d
    obtain ⟨s', x, y, z⟩ := ih (s := s2) (by rw [d]; exact succ4_lt _) (by rw [d]) (by rw [d]; exact hp) (by rw [d]; exact hm)
      (by rw [d]; exact hr)
    have hins : Rounds.ins ((c, cs) :: rs) = (c.sin :: cs.map Call.sin) ++ Rounds.ins rs := rfl
    rw [hins]
    refine ⟨s', ?_, y, ?_⟩
    · rw [run_app, hrun]; exact x
    · rw [rates_append _ _ hrun, hrates, z, List.length_cons, List.range_succ_eq_map, List.map_cons, List.map_map]
      rw [List.singleton_append]
      have hi : s2.rc.idx = succ4 s.rc.idx := by rw [d]
      congr 1
      · rw [Nat.add_zero, succ4_mod hx]
      · refine List.map_congr_left fun k _ => ?_
        show _ = tab.getD ((s.rc.idx + 1 + (k + 1)) % 4) 0
        rw [hi, succ4_mod hx]
        congr 1
        omega

/-! ## Properties -/

/-- C48: as long as a search lasts, the node mode is listen-only; with a driver that does what it is told
the controller is not started.  For all histories in which the application itself does not set the node
mode. -/
theorem C48_listens (mem : Nat → List Byte) (info : XInfo) (is : List SIn) (s : Stack) (hm : ∀ i ∈ is, noMode i = true)
    (hr : (boot mem info).run env is = some s) (hs : Searching s) :
    s.slv.link.mode = .listen ∧ ((∀ k, env.modeOk k = true) → s.slv.link.drv ≠ .start) := by
  have h := (RInv.run is (RInv.boot mem info) hm hr).listens hs
  exact ⟨h.mode, h.drv⟩

/-- C49: the rates to which a search switches follow the table cyclically. -/
theorem C49_cyclic (mem : Nat → List Byte) (info : XInfo) (is0 is : List SIn) (s : Stack) (hm : ∀ i ∈ is0, noMode i = true)
    (hr : (boot mem info).run env is0 = some s) (hl : Lasts env s is) :
    ∃ i n, switches env s is = (List.range n).map fun k => tab.getD ((i + k) % 4) 0 := by
  obtain ⟨n, h⟩ := rates_eq is (RInv.run is0 (RInv.boot mem info) hm hr) hl
  exact ⟨_, n, h⟩

/-- C49: any four consecutive switches visit all four rates. -/
theorem C49_all (mem : Nat → List Byte) (info : XInfo) (is0 is : List SIn) (s : Stack) (hm : ∀ i ∈ is0, noMode i = true)
    (hr : (boot mem info).run env is0 = some s) (hl : Lasts env s is) (k : Nat) (hk : k + 4 ≤ (switches env s is).length)
    (b : Nat) (hb : Rate b) : b ∈ ((switches env s is).drop k).take 4 := by
  obtain ⟨i, n, h⟩ := C49_cyclic mem info is0 is s hm hr hl
  rw [h] at hk ⊢
  rw [List.length_map, List.length_range] at hk
  have hd : ((List.range n).drop k).take 4 = [k, k + 1, k + 2, k + 3] := by
    refine List.ext_getElem ?_ fun j h1 h2 => ?_
    · rw [List.length_take, List.length_drop, List.length_range]
      show _ = 4
      omega
    · rw [List.getElem_take, List.getElem_drop, List.getElem_range]
      have : j < 4 := h2
      have : j = 0 ∨ j = 1 ∨ j = 2 ∨ j = 3 := by omega
      rcases this with rfl | rfl | rfl | rfl <;> rfl
  rw [← List.map_drop, ← List.map_take, hd]
  simp only [List.map_cons, List.map_nil, List.mem_cons, List.not_mem_nil, or_false]
  have key : ∀ j, j < 4 → ∀ b, Rate b → b = tab.getD j 0 ∨ b = tab.getD ((j + 1) % 4) 0 ∨ b = tab.getD ((j + 2) % 4) 0 ∨ b = tab.getD ((j + 3) % 4) 0 := by
    intro j hj b hb
    rcases hb with rfl | rfl | rfl | rfl <;>
    · have : j = 0 ∨ j = 1 ∨ j = 2 ∨ j = 3 := by omega
      rcases this with rfl | rfl | rfl | rfl <;> decide
  have := key ((i + k) % 4) (Nat.mod_lt _ (by decide)) b hb
  rw [show (i + (k + 1)) % 4 = ((i + k) % 4 + 1) % 4 by omega, show (i + (k + 2)) % 4 = ((i + k) % 4 + 2) % 4 by omega,
    show (i + (k + 3)) % 4 = ((i + k) % 4 + 3) % 4 by omega]
  exact this

/-- C49: the search goes on: if each round of `lcsa_process` calls begins after the time for a rate has
passed and sees an error, each round switches to the next rate exactly once. -/
theorem C49_progress (mem : Nat → List Byte) (info : XInfo) (is0 : List SIn) (s : Stack) (hm : ∀ i ∈ is0, noMode i = true)
    (hr : (boot mem info).run env is0 = some s) (hs : s.rc.state = .on) (hp : s.rc.pending ≠ .msg)
    (hmax : env.idleMax + 1 < 65536) (rs : List (Call × List Call)) (h : Rounds env s.rc.next rs) :
    ∃ s', s.run env (Rounds.ins rs) = some s' ∧ Searching s' ∧
      ∃ i, switches env s (Rounds.ins rs) = (List.range rs.length).map fun k => tab.getD ((i + k) % 4) 0 := by
  have hi := RInv.run is0 (RInv.boot mem info) hm hr
  obtain ⟨s', a, b, c⟩ := rounds_run hmax rs hi.idx hs (hi.proc (.inr (.inl hs))) hp h
  exact ⟨s', a, .inr (.inl b), _, c⟩

/-- What ended a search, and the rate: `b` is the rate that was used last, the application is told `b` if
the driver accepts the mode, and the controller is left at `b`. -/
def EndsAt (env : AEnv) (s s' : Stack) (b : Nat) : Prop :=
  Rate b ∧ s'.slv.link.mode = .operational ∧ s'.slv.link.hwRate = b ∧ s'.slv.link.cur = b ∧
  ∃ c : Recon, c.suStop = s.rc.suStop ∧ c.onStop = s.rc.onStop ∧
    ∃ l : List (Frame × Bool), ∃ m, logOf s' = l.map (fun p => .frame p.1 p.2) ++ (m ++ logOf s) ∧
      (m = [] ∨ m = stopCall c b) ∧ ((∀ k, env.modeOk k = true) → m = stopCall c b ∧ s'.slv.link.drv = .start)

/-- C50, as far as it holds: a search that has switched the rate at least once (an online search does that
at once) ends with the rate at which the controller listens, or at startup without traffic with the startup
rate.  Missing: a startup search ended before the first switch. -/
theorem C50_partial (mem : Nat → List Byte) (info : XInfo) (is0 is : List SIn) (s s1 : Stack) (hm : ∀ i ∈ is0, noMode i = true)
    (hr : (boot mem info).run env is0 = some s) (hl : Lasts env s is) (hr1 : s.run env is = some s1)
    (hsw : s.rc.state = .on ∨ s.rc.state = .idle ∨ switches env s is ≠ [])
    (hst : Rate s1.slv.link.startup)
    (now : Nat) (bus : BusState) (lec : Lec) (he : ¬ Searching (s1.process env now bus lec)) :
    ∃ b, EndsAt env s1 (s1.process env now bus lec) b ∧ (b = s1.slv.link.hwRate ∨ b = s1.slv.link.startup ∧ s1.rc.state = .startup) := by
  have hi := RInv.run is0 (RInv.boot mem info) hm hr
  obtain ⟨hi1, hs1⟩ := lasts_run is hi hl hr1
  have hrate : s1.rc.back = tab.getD s1.rc.idx 0 ∧ s1.slv.link.hwRate = tab.getD s1.rc.idx 0 := by
    refine lasts_rate is hi hl hr1 ?_
    rcases hsw with h | h | h
    · exact .inl (hi.rate (.inl h))
    · exact .inl (hi.rate (.inr h))
    · exact .inr h
  have hrt : Rate (tab.getD s1.rc.idx 0) := tab_rate hi1.idx
  obtain ⟨c, w, e1, e2, e3, ⟨l, m, e4, e5, e6⟩, e7⟩ := process_end hi1 hs1 now bus lec he
  have fin : ∀ b, Rate b → c.back = b → c.suStop = s1.rc.suStop → c.onStop = s1.rc.onStop →
      EndsAt env s1 (s1.process env now bus lec) b := by
    intro b hb hc h1 h2
    rw [hc, if_pos hb] at e2 e3
    rw [hc] at e5 e6
    exact ⟨hb, e1, e2, e3, c, h1, h2, l, m, e4, e5, fun k => ⟨e6 k, e7 k⟩⟩
  cases w with
  | suMsg h hq hc => exact ⟨_, fin _ hrt (by rw [hc]; exact hrate.1) (by rw [hc]) (by rw [hc]), .inl hrate.2.symm⟩
  | suTime h hq ht hc => exact ⟨_, fin _ hst (by rw [hc]) (by rw [hc]) (by rw [hc]), .inr ⟨rfl, h⟩⟩
  | msg h hq hc => exact ⟨_, fin _ hrt (by rw [hc]; exact hrate.1) (by rw [hc]) (by rw [hc]), .inl hrate.2.symm⟩
  | noErr h hq hx hc => exact ⟨_, fin _ hrt (by rw [hc]; exact hrate.1) (by rw [hc]) (by rw [hc]), .inl hrate.2.symm⟩
  | bit0 h hq hx hc => exact ⟨_, fin _ hrt (by rw [hc]; exact hrate.1) (by rw [hc]) (by rw [hc]), .inl hrate.2.symm⟩
  | undef h hq hx hc => exact ⟨_, fin _ hrt (by rw [hc]; exact hrate.1) (by rw [hc]) (by rw [hc]), .inl hrate.2.symm⟩

/-- C63, as far as it holds: a frame received during a search is only noted; nothing is sent or reported
for it and no data change. -/
theorem C63_partial (s : Stack) (hs : Searching s) (now obj dlc id : Nat) (ext : Bool) (data : List Byte) :
    ∃ s', s.step env (.rx now obj dlc id ext data) = some s' ∧ logOf s' = logOf s ∧ s'.slv = s.slv ∧ s'.x = s.x ∧
      s'.tnl = s.tnl ∧ s'.q = s.q ∧ s'.info = s.info ∧ s'.lcsa = s.lcsa :=
  ⟨_, rx_search env hs now obj dlc id ext data, rfl, rfl, rfl, rfl, rfl, rfl, rfl⟩

/-- C63, as far as it holds: in the listening part of a search the transmit queue sends nothing. -/
theorem C63_queue_partial (s : Stack) (hs : s.rc.state = .on) (nr dlc : Nat) (src : List Byte) (now : Nat) :
    logOf (s.enqueue env nr dlc src).1 = logOf s ∧ logOf (s.processTx env now).1 = logOf s := by
  obtain ⟨l, e, h⟩ := Sends.enqueue env s nr dlc src
  obtain ⟨l', e', h'⟩ := Sends.processTx env s now
  rw [e, e', h hs, h' hs]
  exact ⟨rfl, rfl⟩

/-- C64, as far as it holds: an online search ends only if a frame was received at the rate in use, or after
ten bit 0 errors.  Missing: searches at startup. -/
theorem C64_partial (mem : Nat → List Byte) (info : XInfo) (is0 is : List SIn) (s0 s s1 : Stack) (hm : ∀ i ∈ is0, noMode i = true)
    (hr : (boot mem info).run env is0 = some s0) (ho : s0.rc.state = .off) (now0 : Nat) (bus0 : BusState) (lec0 : Lec)
    (h0 : s0.process env now0 bus0 lec0 = s) (hl : Lasts env s is) (hr1 : s.run env is = some s1)
    (now : Nat) (bus : BusState) (lec : Lec) (he : ¬ Searching (s1.process env now bus lec)) :
    (∃ is1 j is2 s2, is = is1 ++ j :: is2 ∧ isRx j = true ∧ s.run env is1 = some s2 ∧ switches env s2 (j :: is2) = []) ∨
    (lec = .bit0 ∧ 10 ≤ u16 (s1.rc.bit0 + 1)) := by
  have hi := RInv.run is0 (RInv.boot mem info) hm hr
  have hs := Lasts.searching hl
  rw [← h0] at hs
  obtain ⟨hp, hst⟩ := process_start hi ho now0 bus0 lec0 hs
  have hi0 := hi.process now0 bus0 lec0
  rw [h0] at hp hst hi0
  obtain ⟨hi1, hs1⟩ := lasts_run is hi0 hl hr1
  obtain ⟨a, b⟩ := lasts_pending is hi0 hl hr1 (by rw [hp]; decide)
  have hon := lasts_on is hi0 hl hr1 hst
  obtain ⟨c, w, -⟩ := process_end hi1 hs1 now bus lec he
  have hno : ∀ {x : Prop}, s1.rc.state = .startup → x := by
    intro x h
    rw [h] at hon
    rcases hon with e | e <;> cases e
  have hnn : ∀ {x : Prop}, s1.rc.pending = .none → x := by
    intro x h
    have := b (by rw [h]; decide)
    rw [h, hp] at this
    cases this
  cases w with
  | suMsg h hq hc => exact hno h
  | suTime h hq ht hc => exact hno h
  | msg h hq hc => exact .inl (a hq)
  | noErr h hq hx hc => exact hnn hq
  | bit0 h hq hx hc => exact .inr ⟨hq, hx⟩
  | undef h hq hx hc => exact hnn hx

/-! ## Startup without traffic -/

/-- the state after `lcsa_start` -/
theorem start_spec {s : Stack} (hd : s.lcsa ≠ .download) (now : Nat) :
    (s.start env now).1.rc.state = .startup ∧ (s.start env now).1.rc.process = true ∧ (s.start env now).1.rc.pending = .none ∧
    (s.start env now).1.rc.time = u32 (now + env.ms2t env.suTime) ∧
    (s.start env now).1.slv.link.startup = s.slv.link.startup := by
  unfold Stack.start
  rw [if_neg hd]
  dsimp only
  have key : ∀ r : Stack × Err, ∀ a : Stack, Keep a r.1 →
      Keep a (if r.2 = E.ok then ({ r.1.startAck env with lcsa := .running }, E.ok) else r).1 := by
    intro r a h
    split
    · exact h.trans (Keep.trans (startAck_keep env r.1) ⟨rfl, rfl⟩)
    · exact h
  obtain ⟨-, -, -, -, -, m6⟩ := Slave.setMode_mode env.toEnv s.slv.link .stopped
  have hsb : ∀ (l : Link) (b : Nat), (Slave.setBaud l b).1.startup = l.startup := by
    intro l b
    have h1 : ∀ (r : Link × Err) (x : Nat), (Slave.setBaud1 b r x).1.startup = r.1.startup := by
      intro r x
      have h0 : ∀ (l : Link) (y : Nat), (Slave.hwSetBaud l y).1.startup = l.startup := by
        intro l y
        unfold Slave.hwSetBaud
        repeat' (first | split | rfl | dsimp only)
      unfold Slave.setBaud1
      dsimp only
      split
      · split <;> exact h0 _ _
      · rfl
    have h2 : ∀ (xs : List Nat) (r : Link × Err), (xs.foldl (Slave.setBaud1 b) r).1.startup = r.1.startup := by
      intro xs
      induction xs with
      | nil => exact fun _ => rfl
      | cons x xs ih => intro r; exact (ih _).trans (h1 r x)
    exact h2 _ _
  generalize hs1 : (Stack.nodeMode env (s.setR fun c => { c with state := .startup }) .stopped).1 = s1
  have h1 : s1.rc.state = .startup := by rw [← hs1]; rfl
  have l1 : s1.slv.link.startup = s.slv.link.startup := by rw [← hs1]; exact m6
  have h2 : (s1.baudRate env s1.slv.link.startup).1.rc.state = .startup := h1
  have l2 : (s1.baudRate env s1.slv.link.startup).1.slv.link.startup = s.slv.link.startup :=
    (hsb s1.slv.link s1.slv.link.startup).trans l1
  generalize (s1.baudRate env s1.slv.link.startup).1 = s2 at h2 l2 ⊢
  have h4 : (s2.rcStartup env now).rc.state = .startup ∧ (s2.rcStartup env now).rc.process = true ∧
      (s2.rcStartup env now).rc.pending = .none ∧ (s2.rcStartup env now).rc.time = u32 (now + env.ms2t env.suTime) ∧
      (s2.rcStartup env now).slv.link = s2.slv.link := by
    unfold Stack.rcStartup
    rw [if_pos h2]
    dsimp only
    have hk := notify_keep s2 s2.rc.suStart .suStart
    generalize s2.notify s2.rc.suStart .suStart = s3 at hk ⊢
    unfold Stack.rcOn
    dsimp only
    rw [if_pos rfl]
    refine ⟨?_, rfl, rfl, rfl, hk.2⟩
    show s3.rc.state = _
    rw [hk.1]; exact h2
  generalize s2.rcStartup env now = s4 at h4 ⊢
  obtain ⟨a, b, c, d, e⟩ := h4
  have k := key (s4.nodeMode env .listen) (s4.nodeMode env .listen).1 (.refl _)
  obtain ⟨-, -, -, -, -, n6⟩ := Slave.setMode_mode env.toEnv s4.slv.link .listen
  refine ⟨?_, ?_, ?_, ?_, ?_⟩
  · rw [k.1]; exact a
  · rw [k.1]; exact b
  · rw [k.1]; exact c
  · rw [k.1]; exact d
  · rw [k.2]
    show (Slave.setMode env.toEnv s4.slv.link .listen).1.startup = _
    rw [n6, e]; exact l2

/-- one processing without traffic at startup -/
theorem su_process {s : Stack} (hs : s.rc.state = .startup) (hp : s.rc.process = true) (hm : s.rc.pending = .none) (c : Call)
    (hc : c.lec = .none) :
    (s.rc.time < c.now → (s.process env c.now c.bus c.lec).rc.state = .off) ∧
    (¬ s.rc.time < c.now → (s.process env c.now c.bus c.lec).rc.state = .startup ∧ (s.process env c.now c.bus c.lec).rc.process = true ∧
      (s.process env c.now c.bus c.lec).rc.pending = .none ∧ (s.process env c.now c.bus c.lec).rc.time = s.rc.time ∧
      (s.process env c.now c.bus c.lec).slv.link.startup = s.slv.link.startup) := by
  obtain ⟨t, k1, k2⟩ := process_rc env (.inl hs) c.now c.bus c.lec
  have e : t.rcProcess env c.now s.rc.pending c.lec =
      if t.rc.time < c.now then (t.setR fun x => { x with cause := .noTraffic, back := t.slv.link.startup }).rcOff env c.now
      else if t.rc.next < c.now then t.nextBaud env c.now else t := by
    unfold Stack.rcProcess
    rw [k1.1, hp, hs, hm, hc]
    dsimp only
    rw [if_neg (by decide), if_neg (by decide)]
    congr 1
    rw [if_neg]
    rintro (h | ⟨-, h⟩)
    · cases h
    · exact h rfl
  rw [e] at k2
  refine ⟨fun h => ?_, fun h => ?_⟩
  · rw [if_pos (by rw [k1.1]; exact h)] at k2
    rw [k2.1, (rcOff_spec env _ c.now).1]
  · rw [if_neg (by rw [k1.1]; exact h)] at k2
    by_cases hn : t.rc.next < c.now
    · rw [if_pos hn] at k2
      obtain ⟨e1, -, -, -, -, -, e7⟩ := nextBaud_spec env t c.now
      rw [k2.1, k2.2, e1, e7, k1.1, k1.2]
      exact ⟨hs, hp, hm, rfl, rfl⟩
    · rw [if_neg hn] at k2
      rw [k2.1, k2.2, k1.1, k1.2]
      exact ⟨hs, hp, hm, rfl, rfl⟩

theorem su_run (cs : List Call) : ∀ {s : Stack}, RInv env s → s.rc.state = .startup → s.rc.process = true → s.rc.pending = .none →
    (∀ c ∈ cs, c.lec = .none ∧ c.now ≤ s.rc.time) →
    ∃ s', s.run env (cs.map Call.sin) = some s' ∧ RInv env s' ∧ s'.rc.state = .startup ∧ s'.rc.process = true ∧ s'.rc.pending = .none ∧
      s'.rc.time = s.rc.time ∧ s'.slv.link.startup = s.slv.link.startup := by
  induction cs with
  | nil => intro s hi hs hp hm _; exact ⟨s, rfl, hi, hs, hp, hm, rfl, rfl⟩
  | cons c cs ih =>
    intro s hi hs hp hm hc
    obtain ⟨h1, h2⟩ := hc c (List.mem_cons_self ..)
    obtain ⟨a, b, d, e, f⟩ := (su_process (env := env) hs hp hm c h1).2 (by omega)
    have hi' := hi.process c.now c.bus c.lec
    have hrun : s.run env ((c :: cs).map Call.sin) = (s.process env c.now c.bus c.lec).run env (cs.map Call.sin) := rfl
    rw [hrun]
    generalize s.process env c.now c.bus c.lec = s1 at *
    obtain ⟨s', g⟩ := ih hi' a b d (fun x hx => by rw [e]; exact hc x (List.mem_cons_of_mem _ hx))
    rw [e, f] at g
    exact ⟨s', g⟩

/-- C65, as far as it holds: after `lcsa_start` with a quiet bus the search goes on until the startup time
has passed, and the first call after that ends it with the startup rate.  Missing: the time stamp of the end
is 32 bit and must not wrap. -/
theorem C65_partial (mem : Nat → List Byte) (info : XInfo) (is0 : List SIn) (s : Stack) (hm : ∀ i ∈ is0, noMode i = true)
    (hr : (boot mem info).run env is0 = some s) (hd : s.lcsa ≠ .download) (hb : Rate s.slv.link.startup)
    (t : Nat) (hw : t + env.ms2t env.suTime < 4294967296)
    (cs : List Call) (hq : ∀ c ∈ cs, c.lec = .none ∧ c.now ≤ t + env.ms2t env.suTime) :
    ∃ s', s.run env (.start t :: cs.map Call.sin) = some s' ∧ Searching s' ∧
      ∀ now bus, t + env.ms2t env.suTime < now →
        ¬ Searching (s'.process env now bus .none) ∧ EndsAt env s' (s'.process env now bus .none) s.slv.link.startup := by
  have hi := RInv.run is0 (RInv.boot mem info) hm hr
  have hi1 := hi.start t
  obtain ⟨a, b, c, d, e⟩ := start_spec (env := env) hd t
  have hrun : s.run env (.start t :: cs.map Call.sin) = (s.start env t).1.run env (cs.map Call.sin) := rfl
  rw [hrun]
  generalize (s.start env t).1 = s1 at *
  have ht : s1.rc.time = t + env.ms2t env.suTime := by rw [d]; exact Nat.mod_eq_of_lt hw
  obtain ⟨s', g1, g2, g3, g4, g5, g6, g7⟩ := su_run cs hi1 a b c (fun x hx => by rw [ht]; exact hq x hx)
  refine ⟨s', g1, .inl g3, fun now bus hn => ?_⟩
  have hoff := (su_process (env := env) g3 g4 g5 ⟨now, bus, .none⟩ rfl).1 (by rw [g6, ht]; exact hn)
  have hoff : (s'.process env now bus .none).rc.state = .off := hoff
  have hns := not_searching hoff
  refine ⟨hns, ?_⟩
  obtain ⟨c, w, e1, e2, e3, ⟨l, m, e4, e5, e6⟩, e7⟩ := process_end g2 (.inl g3) now bus .none hns
  cases w with
  | suMsg h hq hc => rw [g5] at hq; cases hq
  | suTime h hq ht hc =>
    have hcb : c.back = s.slv.link.startup := by rw [hc]; exact g7.trans e
    rw [hcb, if_pos hb] at e2 e3
    rw [hcb] at e5 e6
    exact ⟨hb, e1, e2, e3, c, by rw [hc], by rw [hc], l, m, e4, e5, fun k => ⟨e6 k, e7 k⟩⟩
  | msg h hq hc => rw [g5] at hq; cases hq
  | noErr h hq hx hc => rw [g3] at h; cases h
  | bit0 h hq hx hc => rw [g3] at h; cases h
  | undef h hq hx hc => rw [g3] at h; cases h

/-! ## Cases -/

/-- `lcsa_start` at time 10, and a frame before the first switch -/
def exFirst : List SIn := exSetup ++ [.start 10, .rx 11 5 8 0x610 false [1, 0, 0, 0, 0, 0, 0, 0], .process 12 .active .none]

/-- C50 is false: a startup search ended by a frame before the first switch reports the rate 0. -/
theorem C50_counterexample : ∃ s, (∀ i ∈ exFirst, noMode i = true) ∧ (boot exMem exInfo).run exA exFirst = some s ∧
    ¬ Searching s ∧ s.slv.link.mode = .operational ∧ s.slv.link.hwRate = 250 ∧ ACall.suStop 23 0 ∈ exApp s := by
  have h : (match (boot exMem exInfo).run exA exFirst with
    | some s => decide (¬ Searching s ∧ s.slv.link.mode = .operational ∧ s.slv.link.hwRate = 250 ∧ ACall.suStop 23 0 ∈ exApp s)
    | none => false) = true := by decide +kernel
  cases hr : (boot exMem exInfo).run exA exFirst with
  | none => rw [hr] at h; cases h
  | some s => rw [hr] at h; exact ⟨s, by decide, rfl, of_decide_eq_true h⟩

/-- C63 is false: during the startup search the transmit queue hands frames to the driver. -/
theorem C63_counterexample :
    ∃ s s', (boot exMem exInfo).run exA (exSetup ++ [.start 10]) = some s ∧ Searching s ∧
      s.step exA (.enqueue 5 2 [7, 8]) = some s' ∧ Searching s' ∧ (exFrames s).length < (exFrames s').length := by
  have h : (match (boot exMem exInfo).run exA (exSetup ++ [.start 10]) with
    | some s => match s.step exA (.enqueue 5 2 [7, 8]) with
      | some s' => decide (Searching s ∧ Searching s' ∧ (exFrames s).length < (exFrames s').length)
      | none => false
    | none => false) = true := by decide +kernel
  cases hr : (boot exMem exInfo).run exA (exSetup ++ [.start 10]) with
  | none => rw [hr] at h; cases h
  | some s =>
    rw [hr] at h
    dsimp only at h
    cases hr' : s.step exA (.enqueue 5 2 [7, 8]) with
    | none => rw [hr'] at h; cases h
    | some s' =>
      rw [hr'] at h
      obtain ⟨a, b, c⟩ := of_decide_eq_true h
      exact ⟨s, s', rfl, a, hr', b, c⟩

/-- `LI_CAN_SLV_RECONNECT_PROCESS_STARTUP_CHECK_LEC` defined -/
def exL : AEnv := { exA with checkLec := true }

/-- one error at startup, then none -/
def exGuess : List SIn := exSetup ++ [.start 10, .process 11 .active .stuff, .process 12 .active .none]

/-- C64 is false at startup: one error at the startup rate, then no error: the node is operational at
1000 kbit/s though no frame was ever received at that rate (or any other). -/
theorem C64_counterexample : ∃ s, (∀ i ∈ exGuess, noMode i = true ∧ isRx i = false) ∧
    (boot exMem exInfo).run exL exGuess = some s ∧ ¬ Searching s ∧ s.slv.link.mode = .operational ∧
    s.slv.link.hwRate = 1000 ∧ ACall.suStop 23 1000 ∈ exApp s := by
  have h : (match (boot exMem exInfo).run exL exGuess with
    | some s => decide (¬ Searching s ∧ s.slv.link.mode = .operational ∧ s.slv.link.hwRate = 1000 ∧ ACall.suStop 23 1000 ∈ exApp s)
    | none => false) = true := by decide +kernel
  cases hr : (boot exMem exInfo).run exL exGuess with
  | none => rw [hr] at h; cases h
  | some s => rw [hr] at h; exact ⟨s, by decide, rfl, of_decide_eq_true h⟩

/-- started shortly before the clock wraps, and processed at once -/
def exWrap : List SIn := exSetup ++ [.start 4294967290, .process 4294967291 .active .none]

/-- C65 is false if the end of the startup time wraps: the search ends at once. -/
theorem C65_counterexample : ∃ s, (boot exMem exInfo).run exA exWrap = some s ∧ ¬ Searching s ∧ ACall.suStop 23 250 ∈ exApp s := by
  have h : (match (boot exMem exInfo).run exA exWrap with
    | some s => decide (¬ Searching s ∧ ACall.suStop 23 250 ∈ exApp s)
    | none => false) = true := by decide +kernel
  cases hr : (boot exMem exInfo).run exA exWrap with
  | none => rw [hr] at h; cases h
  | some s => rw [hr] at h; exact ⟨s, rfl, of_decide_eq_true h⟩

/-- operational after a startup without traffic, then bus off -/
def exOff : List SIn := exSetup ++ [.start 10, .process 700 .active .none]

/-- the stack after that -/
def exOffS : Stack := (run exA (boot exMem exInfo) exOff).getD (boot exMem exInfo)

/-- an online search -/
def exOn : List SIn := exOff ++ [.process 800 .busOff .none]

/-- the stack after that -/
def exOnS : Stack := (run exA (boot exMem exInfo) exOn).getD (boot exMem exInfo)

theorem exOn_run : run exA (boot exMem exInfo) exOn = some exOnS := by
  have : (run exA (boot exMem exInfo) exOn).isSome = true := by decide +kernel
  unfold exOnS
  generalize run exA (boot exMem exInfo) exOn = o at *
  cases o with
  | none => cases this
  | some s => rfl

theorem exOff_run : run exA (boot exMem exInfo) exOff = some exOffS := by
  have : (run exA (boot exMem exInfo) exOff).isSome = true := by decide +kernel
  unfold exOffS
  generalize run exA (boot exMem exInfo) exOff = o at *
  cases o with
  | none => cases this
  | some s => rfl

/-- C48: an online search is reached and the hypotheses are met. -/
example : (∀ i ∈ exOn, noMode i = true) ∧ run exA (boot exMem exInfo) exOn = some exOnS ∧ Searching exOnS ∧
    exOnS.slv.link.mode = .listen ∧ exOnS.slv.link.drv = .listen :=
  ⟨by decide, exOn_run, by decide +kernel, by decide +kernel, by decide +kernel⟩

/-- five rounds of calls with errors -/
def exRounds : List (Call × List Call) :=
  (List.range 5).map fun k => (⟨900 + 10 * k, .active, .form⟩, List.replicate 3 ⟨901 + 10 * k, .active, .none⟩)

/-- C49: the hypotheses of the progress theorem are met, and five rounds visit five rates. -/
example : exOnS.rc.state = .on ∧ exOnS.rc.pending ≠ .msg ∧ Rounds exA exOnS.rc.next exRounds ∧
    switches exA exOnS (Rounds.ins exRounds) = [500, 250, 125, 1000, 500] :=
  ⟨by decide +kernel, by decide +kernel,
    by refine ⟨?_, ?_, ?_, ?_, ?_, ?_, ?_, ?_, ?_, ?_, ?_, ?_, ?_, ?_, ?_, trivial⟩ <;> decide +kernel, by decide +kernel⟩

/-- C64, C50: an online search that ends with a frame received at 500 kbit/s. -/
def exFound : List SIn := [.process 900 .active .form, .rx 901 5 8 0x610 false [1, 0, 0, 0, 0, 0, 0, 0],
  .process 902 .active .none, .process 903 .active .none, .process 904 .active .none]

example : exOffS.rc.state = .off ∧ exOffS.process exA 800 .busOff .none = exOnS := by
  refine ⟨by decide +kernel, ?_⟩
  have h := exOn_run
  rw [exOn, run_app, exOff_run] at h
  exact Option.some.inj h

theorem exFound_lasts : Lasts exA exOnS exFound := by
  have hl : ∀ (i : SIn) (is : List SIn) (s : Stack), Searching s → noMode i = true → (∀ now, i ≠ .start now) →
      (∀ s', s.step exA i = some s' → Lasts exA s' is) → Lasts exA s (i :: is) := fun i is s a b c d => ⟨a, b, c, d⟩
  have key : ∀ (is : List SIn) (s : Stack), (∀ i ∈ is, noMode i = true ∧ ∀ now, i ≠ .start now) →
      (∀ n, n ≤ is.length → match s.run exA (is.take n) with | some t => Searching t | none => True) → Lasts exA s is := by
    intro is
    induction is with
    | nil => intro s _ h; exact h 0 (Nat.le_refl _)
    | cons i is ih =>
      intro s hm h
      refine hl i is s (h 0 (Nat.zero_le _)) (hm i (List.mem_cons_self ..)).1 (hm i (List.mem_cons_self ..)).2 fun s' hs => ?_
      refine ih s' (fun j hj => hm j (List.mem_cons_of_mem _ hj)) fun n hn => ?_
      have := h (n + 1) (by rw [List.length_cons]; omega)
      rw [List.take_succ_cons, Stack.run, hs] at this
      exact this
  refine key exFound exOnS ?_ ?_
  · intro i hi
    simp only [exFound, List.mem_cons, List.not_mem_nil, or_false] at hi
    rcases hi with rfl | rfl | rfl | rfl | rfl <;> exact ⟨rfl, fun _ e => by cases e⟩
  · intro n hn
    have h : ∀ n ∈ List.range 6, (match exOnS.run exA (exFound.take n) with | some t => decide (Searching t) | none => true) = true := by
      decide +kernel
    have := h n (List.mem_range.mpr (by exact Nat.lt_succ_of_le hn))
    cases hr : exOnS.run exA (exFound.take n) with
    | none => trivial
    | some t => rw [hr] at this; exact of_decide_eq_true this

/-- the search ends and 500 is reported -/
example : (match exOnS.run exA (exFound ++ [.process 905 .active .none]) with
    | some s => decide (¬ Searching s ∧ s.slv.link.hwRate = 500 ∧ ACall.onStop 21 500 ∈ exApp s)
    | none => false) = true := by decide +kernel

/-- C63: the frame is only noted. -/
example : Searching exOnS ∧ exOnS.rc.state = .on := ⟨by decide +kernel, by decide +kernel⟩

/-- C65: quiet for 600 ms -/
example : exS.lcsa ≠ .download ∧ Rate exS.slv.link.startup ∧ 10 + exA.ms2t exA.suTime < 4294967296 ∧
    ∀ c ∈ [(⟨20, .active, .none⟩ : Call), ⟨300, .active, .none⟩], c.lec = .none ∧ c.now ≤ 10 + exA.ms2t exA.suTime :=
  ⟨by decide +kernel, by decide +kernel, by decide +kernel, by decide +kernel⟩

end Stack
end LiCan
