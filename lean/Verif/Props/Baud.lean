import Verif.Lemmas.SlaveTime
import Verif.Props.Sync
/-! # Baud rate and node mode: C30, C31 -/
namespace LiCan
open Node Spec
namespace Spec

/-- The four rates of the bus. -/
def rates : List Nat := [125, 250, 500, 1000]

/-- What the driver must be told for a node mode (`listen`: only with the reconnect feature). -/
def drvOf (listen : Bool) : Mode → DrvMode
  | .operational => .start
  | .listen => if listen then .listen else .stop
  | _ => .stop

end Spec
namespace Slave

theorem setBaud_unsupported (l : Link) (b : Nat) (h : b ∉ rates) : setBaud l b = (l, E.ok) := by
  simp only [rates, List.mem_cons, List.not_mem_nil, or_false, not_or] at h
  simp only [setBaud, bdrTab, List.foldl_cons, List.foldl_nil, setBaud1]
  rw [if_neg h.2.1, if_neg h.1, if_neg h.2.2.1, if_neg h.2.2.2]

theorem setBaud_supported (l : Link) (b : Nat) (h : b ∈ rates) :
    setBaud l b = if l.mode = .init ∨ l.mode = .stopped then ({ l with cur := b, hwRate := b, stored := b, storedN := l.storedN + 1 }, E.ok)
      else ({ l with cur := b }, E.invalidBaudrate) := by
  simp only [rates, List.mem_cons, List.not_mem_nil, or_false] at h
  obtain ⟨mode, cur, su, hw, drv, mn, st, sn⟩ := l
  rcases h with rfl | rfl | rfl | rfl <;> cases mode <;> rfl

/-- C30 as stated is false: an unsupported rate is answered with OK (nothing changes). -/
theorem C30_counterexample : ∃ (l : Link) (b : Nat), b ∉ rates ∧ (setBaud l b).2 = E.ok := ⟨{}, 800, by decide, rfl⟩

/-- C30.  An unsupported rate changes nothing at all.  A supported rate is programmed and stored iff the
node is initialising or stopped; otherwise the error is returned and neither driver nor store change. -/
theorem C30_rates_partial (l : Link) (b : Nat) :
    (b ∉ rates → (setBaud l b).1 = l) ∧
    (b ∈ rates → (l.mode = .init ∨ l.mode = .stopped) →
      (setBaud l b).2 = E.ok ∧ (setBaud l b).1.hwRate = b ∧ (setBaud l b).1.cur = b ∧ (setBaud l b).1.stored = b) ∧
    (b ∈ rates → ¬ (l.mode = .init ∨ l.mode = .stopped) →
      (setBaud l b).2 = E.invalidBaudrate ∧ (setBaud l b).1.hwRate = l.hwRate ∧ (setBaud l b).1.stored = l.stored) ∧
    (setBaud l b).1.mode = l.mode ∧ (setBaud l b).1.drv = l.drv := by
  by_cases hb : b ∈ rates
  · rw [setBaud_supported l b hb]
    by_cases hm : l.mode = .init ∨ l.mode = .stopped
    · rw [if_pos hm]
      exact ⟨fun h => absurd hb h, fun _ _ => ⟨rfl, rfl, rfl, rfl⟩, fun _ h => absurd hm h, rfl, rfl⟩
    · rw [if_neg hm]
      exact ⟨fun h => absurd hb h, fun _ h => absurd h hm, fun _ _ => ⟨rfl, rfl, rfl⟩, rfl, rfl⟩
  · rw [setBaud_unsupported l b hb]
    exact ⟨fun _ => rfl, fun h => absurd h hb, fun h => absurd h hb, rfl, rfl⟩

/-- 500 kBaud while stopped and while operational; 300 while stopped -/
example : setBaud { mode := .stopped } 500 = ({ mode := .stopped, cur := 500, hwRate := 500, stored := 500, storedN := 1 }, E.ok) ∧
    (setBaud { mode := .operational, hwRate := 250, cur := 250 } 500).2 = E.invalidBaudrate ∧
    setBaud { mode := .stopped } 300 = ({ mode := .stopped }, E.ok) := by decide

/-- A rate that was refused because the node is running is nevertheless reported as the current one. -/
theorem C30_reported_rate_counterexample (l : Link) (b : Nat) (hb : b ∈ rates) (hm : l.mode = .operational) :
    (setBaud l b).2 ≠ E.ok ∧ (setBaud l b).1.cur = b ∧ (setBaud l b).1.hwRate = l.hwRate := by
  rw [setBaud_supported l b hb, if_neg (by rw [hm]; simp)]
  exact ⟨by simp, rfl, rfl⟩

example : (setBaud { mode := .operational, hwRate := 250, cur := 250 } 500).1.cur = 500 := by decide

/-! ## Histories -/

/-- an input may change mode and rate only like this -/
inductive LinkEff (env : Env) (l : Link) : Link → Prop
  | same : LinkEff env l l
  | startup (b : Nat) : LinkEff env l { l with startup := b }
  | mode (m : Mode) : LinkEff env l (setMode env l m).1
  | baud (b : Nat) : LinkEff env l (setBaud l b).1
  | change (b : Nat) : LinkEff env l (changeBaud env l b).1

theorem LinkEff.sys {env : Env} {s s' : Slave} {src : List Byte} (h : SysEff env s src s') : LinkEff env s.link s'.link := by
  cases h with
  | baud h => exact .change _
  | cycle h => rw [setCycle_eq]; exact .same
  | _ => exact .same

theorem LinkEff.step {env : Env} {s s' : Slave} {i : In} (hi : ReqInv s) (h : Slave.step env s i = some s') :
    LinkEff env s.link s'.link := by
  cases i with
  | frame now obj dlc id data =>
    by_cases ho : obj = 0
    · subst ho
      obtain ⟨s1, r, hp⟩ := frame_request h
      obtain ⟨c, e⟩ := r.sync
      have hi1 : ReqInv s1 := hi.congr (by rw [e]) (by rw [e]) (by rw [e])
      obtain ⟨-, h2, -⟩ := processRequest_spec hp
      have k := checkImage_keeps env (reqRx s1) now hi1.reqRx
      simp only at k
      rw [h2, k.2.2.2.1, reqRx_eq, ← r.link]
      exact .same
    · rcases frame_other ho h with r | ⟨s1, s2, e, r, hm, rfl⟩
      · rw [r.link]; exact .same
      · rw [← r.link]
        have := LinkEff.sys (sysMsg_eff hm)
        exact this
  | trigger now =>
    simp only [Slave.step, Option.some.injEq] at h
    subst h
    obtain ⟨p, e⟩ := trigger_eq env s now
    rw [e]; exact .same
  | getPeriode => simp only [Slave.step, Option.some.injEq] at h; subst h; exact .same
  | setCycle t =>
    simp only [Slave.step, Option.some.injEq] at h
    subst h
    rw [setCycle_eq]; exact .same
  | setMode m => simp only [Slave.step, Option.some.injEq] at h; subst h; exact .mode m
  | setBaud b => simp only [Slave.step, Option.some.injEq] at h; subst h; exact .baud b
  | table o => simp only [Slave.step, Option.some.injEq] at h; subst h; exact .same
  | allCb f => simp only [Slave.step, Option.some.injEq] at h; subst h; exact .same
  | validCb typ nr f =>
    simp only [Slave.step, Option.some.injEq] at h
    subst h
    rcases setModCb_keeps env s typ nr (fun v tp => { v with validCb := upd v.validCb tp f }) with e | ⟨tp, e⟩ <;> rw [e] <;> exact .same
  | invalidCb typ nr f =>
    simp only [Slave.step, Option.some.injEq] at h
    subst h
    rcases setModCb_keeps env s typ nr (fun v tp => { v with invalidCb := upd v.invalidCb tp f }) with e | ⟨tp, e⟩ <;> rw [e] <;> exact .same
  | reqCb typ nr f =>
    simp only [Slave.step, Option.some.injEq] at h
    subst h
    rcases setModCb_keeps env s typ nr (fun v tp => { v with reqCb := upd v.reqCb tp f }) with e | ⟨tp, e⟩ <;> rw [e] <;> exact .same
  | firstCb f => simp only [Slave.step, Option.some.injEq] at h; subst h; exact .same
  | firstStatusCb f => simp only [Slave.step, Option.some.injEq] at h; subst h; exact .same
  | timeCb f =>
    simp only [Slave.step, Option.some.injEq] at h
    subst h
    unfold setTimeCb; split <;> exact .same
  | resetCb f =>
    simp only [Slave.step, Option.some.injEq] at h
    subst h
    unfold setResetCb; split <;> exact .same
  | init baud =>
    simp only [Slave.step, Option.some.injEq] at h
    subst h
    have : (Slave.init env s baud).1.link = { s.link with startup := baud } := by
      unfold Slave.init; simp only; split <;> rfl
    rw [this]; exact .startup baud

/-- rates are none or one of the four -/
structure RateInv (l : Link) : Prop where
  cur : l.cur = 0 ∨ l.cur ∈ rates
  hw : l.hwRate = 0 ∨ l.hwRate ∈ rates
  stored : l.stored = l.hwRate

theorem setMode_link (env : Env) (l : Link) (m : Mode) :
    (setMode env l m).1 =
      { l with mode := m, modeN := l.modeN + 1
               drv := if env.modeOk l.modeN then drvOf env.recon m else l.drv } ∧
    ((setMode env l m).2 = E.ok ↔ env.modeOk l.modeN = true) := by
  unfold setMode drvMode drvOf
  obtain ⟨mode, cur, su, hw, drv, mn, st, sn⟩ := l
  cases m <;> cases h : env.modeOk mn <;> cases env.recon <;> simp [h]

theorem RateInv.mode {l : Link} (h : RateInv l) (env : Env) (m : Mode) : RateInv (setMode env l m).1 := by
  rw [(setMode_link env l m).1]; exact ⟨h.cur, h.hw, h.stored⟩

theorem RateInv.baud {l : Link} (h : RateInv l) (b : Nat) : RateInv (setBaud l b).1 := by
  by_cases hb : b ∈ rates
  · rw [setBaud_supported l b hb]
    split
    · exact ⟨.inr hb, .inr hb, rfl⟩
    · exact ⟨.inr hb, h.hw, h.stored⟩
  · rw [setBaud_unsupported l b hb]; exact h

theorem RateInv.eff {env : Env} {l l' : Link} (h : RateInv l) (e : LinkEff env l l') : RateInv l' := by
  cases e with
  | same => exact h
  | startup b => exact ⟨h.cur, h.hw, h.stored⟩
  | mode m => exact h.mode env m
  | baud b => exact h.baud b
  | change b =>
    unfold changeBaud
    simp only
    have h1 := h.mode env .stopped
    generalize setMode env l .stopped = r at h1 ⊢
    have h2 : RateInv (if r.2 = E.ok then setBaud r.1 b else r).1 := by
      split
      · exact h1.baud b
      · exact h1
    generalize (if r.2 = E.ok then setBaud r.1 b else r) = r' at h2 ⊢
    split
    · exact h2.mode env _
    · exact h2

/-- C30 for all histories from start-up: the reported rate, the rate given to the driver and the rate
stored for the boot loader are each none or one of the four, and the last two agree. -/
theorem C30_rates_history (env : Env) (mem : Nat → List Byte) (is : List In) (s : Slave)
    (h : run env (Slave.boot mem) is = some s) :
    (s.link.cur = 0 ∨ s.link.cur ∈ rates) ∧ (s.link.hwRate = 0 ∨ s.link.hwRate ∈ rates) ∧
    s.link.stored = s.link.hwRate := by
  have : ReqInv s ∧ RateInv s.link := run_ind (fun s => ReqInv s ∧ RateInv s.link)
    (fun s s' i hp hs => ⟨hp.1.step hs, hp.2.eff (.step hp.1 hs)⟩) is
    ⟨.boot mem, ⟨.inl rfl, .inl rfl, rfl⟩⟩ h
  exact ⟨this.2.cur, this.2.hw, this.2.stored⟩

/-- a baud rate change message, then an unsupported rate set by the application -/
example : ((exStart.bind fun s => run exEnv s [.setMode .operational, .frame 0 2 8 0x002 [2, 0x01, 0xF4, 0, 0, 0, 0, 0],
      .setMode .stopped, .setBaud 300]).map fun s => (s.link.cur, s.link.hwRate, s.link.stored, s.link.mode)) =
    some (500, 500, 500, .stopped) := by decide +kernel

/-- C31.  A baud rate change message to all: if the driver can be stopped, the node mode afterwards is
the one before, a supported rate is in use and an unsupported one changes no rate, and if the driver
accepts the old mode again it is in the state belonging to it. -/
theorem C31_mode_restored (env : Env) (s : Slave) (src : List Byte) (hc : at8 src 0 = 2) (hm : s.node.nrMod ≠ 0)
    (hstop : env.modeOk s.link.modeN = true) :
    ∃ l e, sysMsg env s 1 8 src = some ({ s with link := l }, e) ∧ l.mode = s.link.mode ∧
      (let b := at8 src 1 * 256 + at8 src 2
       (b ∈ rates → l.cur = b ∧ l.hwRate = b ∧ l.stored = b) ∧
       (b ∉ rates → l.cur = s.link.cur ∧ l.hwRate = s.link.hwRate ∧ l.stored = s.link.stored)) ∧
      (env.modeOk (s.link.modeN + 1) = true → e = E.ok ∧ l.drv = drvOf env.recon s.link.mode) ∧
      (env.modeOk (s.link.modeN + 1) = false → e ≠ E.ok ∧ l.drv = .stop) := by
  have key : sysMsg env s 1 8 src = some ({ s with link := (changeBaud env s.link (at8 src 1 * 256 + at8 src 2)).1 },
      (changeBaud env s.link (at8 src 1 * 256 + at8 src 2)).2) := by
    unfold sysMsg
    rw [if_neg (by simp)]
    simp only
    rw [if_neg (by simp), if_neg (by simp [hm]), hc]
    simp
  refine ⟨_, _, key, ?_⟩
  generalize at8 src 1 * 256 + at8 src 2 = b
  unfold changeBaud
  simp only
  have h1 := setMode_link env s.link .stopped
  rw [hstop] at h1
  generalize setMode env s.link .stopped = r at h1 ⊢
  obtain ⟨l1, e1⟩ := r
  obtain ⟨h1, h1e⟩ := h1
  simp only at h1 h1e
  rw [if_pos (h1e.2 trivial)]
  have hb2 : (setBaud l1 b).2 = E.ok := by
    by_cases hb : b ∈ rates
    · rw [setBaud_supported l1 b hb, if_pos (by rw [h1]; simp)]
    · rw [setBaud_unsupported l1 b hb]
  rw [if_pos hb2]
  have h2 := setMode_link env (setBaud l1 b).1 s.link.mode
  have hn : (setBaud l1 b).1.modeN = s.link.modeN + 1 := by
    by_cases hb : b ∈ rates
    · rw [setBaud_supported l1 b hb, if_pos (by rw [h1]; simp), h1]
    · rw [setBaud_unsupported l1 b hb, h1]
  have hd : (setBaud l1 b).1.drv = .stop := by
    by_cases hb : b ∈ rates
    · rw [setBaud_supported l1 b hb, if_pos (by rw [h1]; simp), h1]; rfl
    · rw [setBaud_unsupported l1 b hb, h1]; rfl
  rw [hn] at h2
  generalize setMode env (setBaud l1 b).1 s.link.mode = r2 at h2 ⊢
  obtain ⟨l2, e2⟩ := r2
  obtain ⟨h2, h2e⟩ := h2
  simp only at h2 h2e ⊢
  refine ⟨by rw [h2], ⟨fun hb => ?_, fun hb => ?_⟩, fun hok => ⟨h2e.2 hok, by rw [h2, hok]; rfl⟩,
    fun hno => ⟨fun hc => ?_, by rw [h2, hno]; exact hd⟩⟩
  · rw [h2, setBaud_supported l1 b hb, if_pos (by rw [h1]; simp)]; exact ⟨rfl, rfl, rfl⟩
  · rw [h2, setBaud_unsupported l1 b hb, h1]; exact ⟨rfl, rfl, rfl⟩
  · rw [h2e.1 hc] at hno; cases hno

/-- C31.  If the driver refuses to stop, the error is returned and rates and driver stay, but the
reported node mode is now "stopped". -/
theorem C31_stop_refused (env : Env) (s : Slave) (src : List Byte) (hc : at8 src 0 = 2) (hm : s.node.nrMod ≠ 0)
    (hstop : env.modeOk s.link.modeN = false) :
    ∃ l e, sysMsg env s 1 8 src = some ({ s with link := l }, e) ∧ e ≠ E.ok ∧ l.mode = .stopped ∧
      l.cur = s.link.cur ∧ l.hwRate = s.link.hwRate ∧ l.stored = s.link.stored ∧ l.drv = s.link.drv := by
  have key : sysMsg env s 1 8 src = some ({ s with link := (changeBaud env s.link (at8 src 1 * 256 + at8 src 2)).1 },
      (changeBaud env s.link (at8 src 1 * 256 + at8 src 2)).2) := by
    unfold sysMsg
    rw [if_neg (by simp)]
    simp only
    rw [if_neg (by simp), if_neg (by simp [hm]), hc]
    simp
  refine ⟨_, _, key, ?_⟩
  unfold changeBaud
  simp only
  have h1 := setMode_link env s.link .stopped
  rw [hstop] at h1
  generalize setMode env s.link .stopped = r at h1 ⊢
  obtain ⟨l1, e1⟩ := r
  obtain ⟨h1, h1e⟩ := h1
  simp only at h1 h1e
  have : ¬ e1 = E.ok := fun h => by have := h1e.1 h; cases this
  simp only [if_neg this]
  exact ⟨this, by rw [h1], by rw [h1], by rw [h1], by rw [h1], by rw [h1]; simp⟩

/-- operational at 250, change to 500: operational again; with a driver that refuses every call the
mode reads stopped -/
example : ((exStart.bind fun s => run exEnv s [.setMode .operational, .frame 0 2 8 0x002 [2, 0x01, 0xF4, 0, 0, 0, 0, 0]]).map
      fun s => (s.link.mode, s.link.drv, s.link.cur, s.node.nrMod)) = some (.operational, .start, 500, 2) ∧
    ((exStart.bind fun s => run { exEnv with modeOk := fun k => k == 0 } s
      [.setMode .operational, .frame 0 2 8 0x002 [2, 0x01, 0xF4, 0, 0, 0, 0, 0]]).map
      fun s => (s.link.mode, s.link.drv, s.link.cur)) = some (.stopped, .start, 0) := by decide +kernel

end Slave
end LiCan
