import Verif.Props.Operation
import Verif.Props.Sessions
import Verif.Props.NodeNumber
import Verif.Props.SyncTime
/-! # C55, C56, C68, C74, C110, exact: what happens where the claims fail -/
namespace LiCan
open Node Spec

/-! ## C55 -/

/-- two nodes that differ in the names of the modules, their number and the message objects only -/
def SameSend (n m : Node) : Prop :=
  ∃ rs k hw, m = { n with rows := rs, nrMod := k, hw := hw } ∧ ∀ i, rs i = { n.rows i with typ := (rs i).typ }

theorem SameSend.report {env : Env} {n m : Node} (h : SameSend n m) (e : Err) : SameSend (n.report env e) (m.report env e) := by
  obtain ⟨rs, k, hw, rfl, hr⟩ := h
  have h0 : (rs 0).nr = (n.rows 0).nr := by rw [hr 0]
  unfold Node.report
  dsimp only
  rw [h0]
  split
  · exact ⟨rs, k, hw, rfl, hr⟩
  · exact ⟨rs, k, hw, rfl, hr⟩

theorem SameSend.send {env : Env} {n m : Node} (h : SameSend n m) (f : Frame) :
    SameSend (n.send env f).1 (m.send env f).1 ∧ (m.send env f).2 = (n.send env f).2 := by
  obtain ⟨rs, k, hw, rfl, hr⟩ := h
  exact ⟨⟨rs, k, hw, rfl, hr⟩, rfl⟩

theorem SameSend.one {env : Env} {n m : Node} (h : SameSend n m) (tp obj : Nat) (buf : List Byte) :
    SameSend (sendOne env n tp obj buf).1 (sendOne env m tp obj buf).1 ∧
    (sendOne env m tp obj buf).2 = (sendOne env n tp obj buf).2 := by
  have hr := h
  obtain ⟨rs, k, hw, e, hr⟩ := hr
  have h1 : (m.rows tp).tx = (n.rows tp).tx := by rw [e]; show (rs tp).tx = _; rw [hr tp]
  have h2 : (m.rows tp).txMainSync = (n.rows tp).txMainSync := by rw [e]; show (rs tp).txMainSync = _; rw [hr tp]
  have h3 : (m.rows tp).txDlc = (n.rows tp).txDlc := by rw [e]; show (rs tp).txDlc = _; rw [hr tp]
  have h4 : m.mem = n.mem := by rw [e]
  have h5 : m.tx = n.tx := by rw [e]
  have hu : SameSend { n with ub := true } { m with ub := true } := ⟨rs, k, hw, by rw [e], hr⟩
  unfold sendOne
  simp only [h1, h2, h3]
  split
  · exact ⟨hu, rfl⟩
  · rw [show m.mem ((n.rows tp).tx obj) = n.mem ((n.rows tp).tx obj) by rw [h4]]
    generalize callTx env ((n.rows tp).txMainSync obj) (n.mem ((n.rows tp).tx obj)) ((n.rows tp).txDlc obj) buf = r
    split
    · rw [show m.tx.id tp obj = n.tx.id tp obj by rw [h5], show m.tx.dlc tp obj = n.tx.dlc tp obj by rw [h5]]
      obtain ⟨a, b⟩ := h.send (env := env) ⟨n.tx.id tp obj, n.tx.dlc tp obj, r.1.take (n.tx.dlc tp obj)⟩
      rw [b]
      exact ⟨a.report _, rfl⟩
    · exact ⟨h.report _, rfl⟩

theorem SameSend.run {env : Env} (k : Nat) : ∀ {n m : Node} (sd : BitVec 32) (c : Nat) (buf : List Byte), SameSend n m →
    (sendRun env k ⟨sd, c, buf, m⟩).map (·.log) = (sendRun env k ⟨sd, c, buf, n⟩).map (·.log) := by
  induction k with
  | zero =>
    intro n m sd c buf h
    have hl : m.log = n.log := by obtain ⟨_, _, _, e, -⟩ := h; rw [e]
    unfold sendRun
    dsimp only
    split
    · show some m.log = some n.log; rw [hl]
    · rfl
  | succ k ih =>
    intro n m sd c buf h
    have hl : m.log = n.log := by obtain ⟨_, _, _, e, -⟩ := h; rw [e]
    have ht : m.tx = n.tx := by obtain ⟨_, _, _, e, -⟩ := h; rw [e]
    unfold sendRun sendStep
    dsimp only
    rw [ht]
    by_cases h1 : sd = 0
    · rw [if_pos h1, if_pos h1]; show some m.log = some n.log; rw [hl]
    · rw [if_neg h1, if_neg h1]
      by_cases h2 : c ≤ n.tx.last ∧ sd.getLsbD 0 = false
      · rw [if_pos h2, if_pos h2]; exact ih _ _ _ h
      · rw [if_neg h2, if_neg h2]
        by_cases h3 : sd.getLsbD 0 = true
        · rw [if_pos h3, if_pos h3]
          dsimp only
          obtain ⟨a, b⟩ := h.one (env := env) (c / 4) (c % 4) buf
          rw [b]
          exact ih _ _ _ a
        · rw [if_neg h3, if_neg h3]; exact ih _ _ _ h

theorem init_same (env : Env) (he : EnvOk env) (n : Node) : ∃ hw, (Node.init env n).1 = { n with
    rows := fun i => if i < env.maxMod then { n.rows i with typ := [] } else n.rows i, nrMod := 0, hw := hw } := by
  have ten := he.o10
  have st : ∀ (m : Node) (q : Node × Err) (o : Nat) (d : ObjDef), o < env.nObj → (∃ hw, q.1 = { m with hw := hw }) →
      ∃ hw, (thenOk q fun n => define env n o d).1 = { m with hw := hw } := by
    intro m q o d ho ⟨hw, e⟩
    unfold thenOk
    split
    · show ∃ hw, (define env q.1 o d).1 = _
      unfold define
      rw [if_neg (by omega), e]
      dsimp only
      split <;> exact ⟨_, rfl⟩
    · exact ⟨hw, e⟩
  have key : ∀ m : Node, ∃ hw, (thenOk (thenOk (thenOk (thenOk (define env m 0 ⟨0x001, 0x7FF#16, 1, .rx false⟩)
      fun n => define env n 2 ⟨0x002, 0x7FF#16, 8, .rx false⟩)
      fun n => if env.sysObj2 then define env n 3 ⟨0x002, 0x7FF#16, 8, .rx false⟩ else (n, E.ok))
      fun n => define env n 6 ⟨0x600, 0x7FF#16, 8, .asyncRx⟩)
      fun n => define env n 10 ⟨0, 0x7FF#16, 0, .tx⟩).1 = { m with hw := hw } := by
    intro m
    have a0 : ∃ hw, (define env m 0 ⟨0x001, 0x7FF#16, 1, .rx false⟩).1 = { m with hw := hw } := by
      unfold define
      rw [if_neg (by omega)]
      dsimp only
      split <;> exact ⟨_, rfl⟩
    have a1 := st m _ 2 ⟨0x002, 0x7FF#16, 8, .rx false⟩ (by omega) a0
    refine st m _ 10 _ (by omega) (st m _ 6 _ (by omega) ?_)
    generalize (thenOk (define env m 0 ⟨0x001, 0x7FF#16, 1, .rx false⟩) fun n => define env n 2 ⟨0x002, 0x7FF#16, 8, .rx false⟩) = q at a1 ⊢
    by_cases h : env.sysObj2 = true
    · simp only [h, if_true]; exact st m _ 3 _ (by omega) a1
    · simp only [h]
      unfold thenOk
      split
      · exact a1
      · exact a1
  unfold Node.init
  dsimp only
  obtain ⟨hw, e⟩ := key { n with
    nrMod := 0
    rows := fun i => if i < env.maxMod then { n.rows i with typ := [] } else n.rows i
    hw := { n.hw with
      used := fun i => if i < env.nObj then false else n.hw.used i
      defs := fun i => if i < env.nObj then none else n.hw.defs i } }
  exact ⟨hw, e⟩

/-- **C55**, exact: what an initialisation leaves of whatever was before.  The names and the number of the modules are gone and nothing else:
the receive slots, the silent states, the table of transmit objects stay, and a process request transmits exactly what it would have
transmitted without the initialisation. -/
theorem C55_exact (env : Env) (he : EnvOk env) (n : Node) :
    let m := (Node.init env n).1
    (∀ i < env.maxMod, m.rows i = { n.rows i with typ := [] }) ∧ m.nrMod = 0 ∧
    m.slots = n.slots ∧ m.tx = n.tx ∧ m.silent = n.silent ∧ m.mem = n.mem ∧
    (sendProcessData env m).map (·.log) = (sendProcessData env n).map (·.log) := by
  intro m
  obtain ⟨hw, e⟩ := init_same env he n
  have h : SameSend n m := ⟨_, _, hw, e, fun i => by dsimp only; split <;> rfl⟩
  have e : m = _ := e
  generalize m = q at e h
  have ht : q.tx = n.tx := by rw [e]
  refine ⟨fun i hi => by rw [e]; exact if_pos hi, by rw [e], by rw [e], ht, by rw [e], by rw [e], ?_⟩
  unfold sendProcessData
  rw [ht]
  exact h.run 32 _ _ _

/-- two modules registered, then initialised again: five frames are transmitted all the same -/
example : EnvOk exEnv ∧ (Node.run exEnv (exInit exEnv) exOps).tx.reg ≠ 0 ∧
    ((sendProcessData exEnv (Node.run exEnv (exInit exEnv) exOps)).map fun n => (n.log.filterMap frameOf).length) = some 5 := by
  refine ⟨⟨by decide, by decide, by decide⟩, by decide +kernel, by decide +kernel⟩

/-! ## C56 -/
namespace Slave

/-- what `lcsa_process` at tick `t` makes of the time since the request at `t0`: the maximum period in ticks is cut to 16 bits -/
def Spec.waited (env : Env) (t0 : Nat) : In → Nat
  | .trigger t => env.t2ms (min (env.ms2t env.perMax % 65536) (elapsed t0 t))
  | _ => 0
open Spec

theorem period_step {env : Env} {s s' : Slave} {x : In} (hx : isReq x = false) (hi : ∀ b, x ≠ .init b)
    (h : Slave.step env s x = some s') :
    min s'.sync.periode env.perMax = min (max s.sync.periode (waited env s.sync.stamp x)) env.perMax := by
  have same : ∀ {s' : Slave}, s'.sync.periode = s.sync.periode → waited env s.sync.stamp x = 0 →
      min s'.sync.periode env.perMax = min (max s.sync.periode (waited env s.sync.stamp x)) env.perMax := by
    intro s' a b; rw [a, b]; omega
  cases x with
  | frame now obj dlc id data =>
    have ho : obj ≠ 0 := by simpa [isReq] using hx
    rcases frame_other ho h with r | ⟨s1, s2, e, r, hm, rfl⟩
    · obtain ⟨c, e⟩ := r.sync
      exact same (by rw [e]) rfl
    · obtain ⟨c, e⟩ := r.sync
      have t : s2.sync.periode = s1.sync.periode := by
        cases sysMsg_eff hm with
        | cycle h => rw [setCycle_eq]
        | _ => rfl
      exact same (show s2.sync.periode = _ by rw [t, e]) rfl
  | trigger now =>
    injection h with h; subst h
    unfold trigger waited
    simp only
    rw [sub32_eq]
    have hm : (if u16 (env.ms2t env.perMax) < elapsed s.sync.stamp now then u16 (env.ms2t env.perMax) else elapsed s.sync.stamp now) =
        min (env.ms2t env.perMax % 65536) (elapsed s.sync.stamp now) := by
      show (if env.ms2t env.perMax % 65536 < _ then env.ms2t env.perMax % 65536 else _) = _
      split <;> omega
    rw [hm]
    generalize env.t2ms _ = d
    split
    · show min d _ = _; omega
    · omega
  | getPeriode =>
    injection h with h; subst h
    unfold getPeriode waited; simp only
    split
    · show min env.perMax _ = _; omega
    · omega
  | setCycle t => injection h with h; subst h; rw [setCycle_eq]; exact same rfl rfl
  | validCb typ nr f =>
    injection h with h; subst h
    rcases setModCb_keeps env s typ nr (fun v tp => { v with validCb := upd v.validCb tp f }) with e | ⟨tp, e⟩ <;> rw [e] <;>
    exact same rfl rfl
  | invalidCb typ nr f =>
    injection h with h; subst h
    rcases setModCb_keeps env s typ nr (fun v tp => { v with invalidCb := upd v.invalidCb tp f }) with e | ⟨tp, e⟩ <;> rw [e] <;>
    exact same rfl rfl
  | reqCb typ nr f =>
    injection h with h; subst h
    rcases setModCb_keeps env s typ nr (fun v tp => { v with reqCb := upd v.reqCb tp f }) with e | ⟨tp, e⟩ <;> rw [e] <;>
    exact same rfl rfl
  | timeCb f => injection h with h; subst h; unfold setTimeCb; split <;> exact same rfl rfl
  | resetCb f => injection h with h; subst h; unfold setResetCb; split <;> exact same rfl rfl
  | init baud => exact absurd rfl (hi baud)
  | setMode m => injection h with h; subst h; exact same rfl rfl
  | setBaud b => injection h with h; subst h; exact same rfl rfl
  | table o => injection h with h; subst h; exact same rfl rfl
  | allCb f => injection h with h; subst h; exact same rfl rfl
  | firstCb f => injection h with h; subst h; exact same rfl rfl
  | firstStatusCb f => injection h with h; subst h; exact same rfl rfl

theorem period_run {env : Env} (xs : List In) : ∀ {s s' : Slave}, (∀ x ∈ xs, isReq x = false) → (∀ x ∈ xs, ∀ b, x ≠ .init b) →
    run env s xs = some s' →
    min s'.sync.periode env.perMax = min (xs.foldl (fun p x => max p (waited env s.sync.stamp x)) s.sync.periode) env.perMax := by
  have key : ∀ (st : Nat) (xs : List In) (p q : Nat), min p env.perMax = min q env.perMax →
      min (xs.foldl (fun p x => max p (waited env st x)) p) env.perMax = min (xs.foldl (fun p x => max p (waited env st x)) q) env.perMax := by
    intro st xs
    induction xs with
    | nil => intro p q h; exact h
    | cons x xs ih => intro p q h; exact ih _ _ (by dsimp only; generalize waited env st x = w; omega)
  induction xs with
  | nil => intro s s' _ _ h; injection h with h; subst h; rfl
  | cons x xs ih =>
    intro s s' hx hi h
    simp only [run, Option.bind_eq_some_iff] at h
    obtain ⟨s1, h1, h2⟩ := h
    have a := period_step (hx x (by simp)) (hi x (by simp)) h1
    have st := (TimeRel.step (hx x (by simp)) h1).stamp
    have b := ih (fun y hy => hx y (by simp [hy])) (fun y hy => hi y (by simp [hy])) h2
    rw [b, st]
    exact key _ _ _ _ a

/-- **C56**, exact: the reported period after a process request at `t0` and whatever follows - frames, calls of `lcsa_process`, settings -
except another request and another initialisation: the longest wait seen by `lcsa_process`, measured with the cut maximum. -/
theorem C56_exact (env : Env) (s0 s1 s2 : Slave) (h0 : ReqInv s0) (t0 d0 i0 : Nat) (b0 : List Byte) (xs : List In)
    (hA : step env s0 (.frame t0 0 d0 i0 b0) = some s1) (hx : ∀ x ∈ xs, ¬ isRequest x) (hi : ∀ x ∈ xs, ∀ b, x ≠ .init b)
    (hxs : run env s1 xs = some s2) :
    (getPeriode env s2).2 = min (xs.foldl (fun p x => max p (waited env t0 x)) (env.t2ms (elapsed s0.sync.stamp t0))) env.perMax := by
  have a := request_time h0 hA
  have b := period_run xs (fun x h => (isReq_iff x).2 (hx x h)) hi hxs
  rw [C17_reported_period, b, a.1, a.2.1, sub32_eq]

/-- **C56**, exact: the condition under which the loss of the requests is seen at all.  If the ticks are monotone, the node that was served in
time before reports the maximum period after a wait of any length if and only if the maximum period, cut to 16 bits of ticks, is still the
maximum period. -/
theorem C56_seen_iff (env : Env) (s0 s1 s2 : Slave) (h0 : ReqInv s0) (t0 d0 i0 t : Nat) (b0 : List Byte) (xs ys : List In)
    (hmono : ∀ a b, a ≤ b → env.t2ms a ≤ env.t2ms b)
    (hA : step env s0 (.frame t0 0 d0 i0 b0) = some s1) (hp : env.t2ms (elapsed s0.sync.stamp t0) < env.perMax)
    (hx : ∀ x ∈ xs ++ .trigger t :: ys, ¬ isRequest x) (hi : ∀ x ∈ xs ++ .trigger t :: ys, ∀ b, x ≠ .init b)
    (hxs : run env s1 (xs ++ .trigger t :: ys) = some s2) (hE : env.ms2t env.perMax ≤ elapsed t0 t) :
    (getPeriode env s2).2 = env.perMax ↔ env.perMax ≤ env.t2ms (env.ms2t env.perMax % 65536) := by
  rw [C56_exact env s0 s1 s2 h0 t0 d0 i0 b0 _ hA hx hi hxs]
  have up : ∀ (xs : List In) (p B : Nat), p ≤ B → env.t2ms (env.ms2t env.perMax % 65536) ≤ B →
      xs.foldl (fun p x => max p (waited env t0 x)) p ≤ B := by
    intro xs
    induction xs with
    | nil => intro p B h _; exact h
    | cons x xs ih =>
      intro p B h k
      refine ih _ _ ?_ k
      have : waited env t0 x ≤ B := by
        cases x with
        | trigger t' => exact Nat.le_trans (hmono _ _ (Nat.min_le_left ..)) k
        | _ => exact Nat.zero_le _
      dsimp only
      omega
  have low : ∀ (xs : List In) (p : Nat), p ≤ xs.foldl (fun p x => max p (waited env t0 x)) p := by
    intro xs
    induction xs with
    | nil => intro p; exact Nat.le_refl _
    | cons x xs ih => intro p; exact Nat.le_trans (Nat.le_max_left ..) (ih _)
  constructor
  · intro h
    apply Classical.byContradiction
    intro hn
    have := up (xs ++ .trigger t :: ys) (env.t2ms (elapsed s0.sync.stamp t0)) (env.perMax - 1) (by omega) (by omega)
    omega
  · intro h
    have : env.perMax ≤ (xs ++ .trigger t :: ys).foldl (fun p x => max p (waited env t0 x)) (env.t2ms (elapsed s0.sync.stamp t0)) := by
      rw [List.foldl_append, List.foldl_cons]
      refine Nat.le_trans ?_ (low _ _)
      have hw : waited env t0 (.trigger t) = env.t2ms (env.ms2t env.perMax % 65536) := by
        show env.t2ms (min (env.ms2t env.perMax % 65536) (elapsed t0 t)) = _
        rw [Nat.min_eq_left]
        have := Nat.mod_le (env.ms2t env.perMax) 65536
        omega
      rw [hw]
      omega
    omega

/-- both outcomes: a millisecond clock, and a microsecond clock -/
example : exEnv.perMax ≤ exEnv.t2ms (exEnv.ms2t exEnv.perMax % 65536) ∧
    ¬ (100 : Nat) ≤ (100 * 1000 % 65536) / 1000 ∧
    ((exStart.bind fun s => run { exEnv with ms2t := fun t => t * 1000, t2ms := fun t => t / 1000 } s [exReq 10000, exReq 20000, .trigger 1020000,
      .trigger 9020000]).map fun s => (getPeriode { exEnv with ms2t := fun t => t * 1000, t2ms := fun t => t / 1000 } s).2) = some 34 := by
  decide +kernel

end Slave

/-! ## C74 -/
namespace Stack
open Slave (at8 byteOf)

variable {env : AEnv}

/-- **C74**, exact: the data, the end of a block and the end of a download are not bound to a module at all.  Whichever module of the node is
addressed, they do the same to the transfer that is running (or to none). -/
theorem C74_unbound (s : Stack) (nr nr' tp tp' : Nat) (src : List Byte) (ha : Addressed env s nr tp) (ha' : Addressed env s nr' tp')
    (hc : at8 src 0 = 0x15 ∨ at8 src 0 = 0x16 ∨ at8 src 0 = 0x17) :
    (s.asyncRx env nr src).1.x = (s.asyncRx env nr' src).1.x ∧ (s.asyncRx env nr src).2 = (s.asyncRx env nr' src).2 := by
  rw [asyncRx_eq ha, asyncRx_eq ha']
  have e : ∀ n t, s.command env n t src = (if at8 src 0 = 0x15 then s.dlData env n src else if at8 src 0 = 0x16 then s.dlBlockEnd env n src
      else s.dlEnd env n) := by
    intro n t
    unfold command
    rcases hc with h | h | h <;> rw [h] <;> rfl
  rw [e, e]
  split
  · unfold dlData
    dsimp only
    split <;> exact ⟨rfl, rfl⟩
  · split
    · unfold dlBlockEnd
      dsimp only
      repeat' split
      all_goals exact ⟨rfl, rfl⟩
    · unfold dlEnd
      dsimp only
      repeat' split
      all_goals exact ⟨rfl, rfl⟩

/-- modules 5 and 9 are in the table -/
example : Addressed exA exS 5 0 ∧ Addressed exA exS 9 1 := by decide +kernel

/-! ## C110 -/

/-- **C110**, exact: `lcsa_set_baudrate` in every state.  A rate that is not supported: nothing happens and OK is returned.  On a node that is
stopped or not started: controller, reported and stored rate are the new one.  On any other node the new rate is reported, the controller and
the stored rate stay, and the error is returned. -/
theorem C110_set (s : Stack) (b : Nat) :
    let r := s.baudRate env b
    if b = 125 ∨ b = 250 ∨ b = 500 ∨ b = 1000 then
      if s.slv.link.mode = .init ∨ s.slv.link.mode = .stopped then
        r.2 = E.ok ∧ r.1.slv.link.cur = b ∧ r.1.slv.link.hwRate = b ∧ r.1.info = s.info.setBaud env.crc b
      else
        r.2 = E.invalidBaudrate ∧ r.1 = { s with slv := { s.slv with link := { s.slv.link with cur := b } } }
    else r = (s, E.ok) := by
  intro r
  have hl : Slave.setBaud s.slv.link b =
      (if b = 125 ∨ b = 250 ∨ b = 500 ∨ b = 1000 then
        if s.slv.link.mode = .init ∨ s.slv.link.mode = .stopped then
          ({ s.slv.link with cur := b, hwRate := b, stored := b, storedN := s.slv.link.storedN + 1 }, E.ok)
        else ({ s.slv.link with cur := b }, E.invalidBaudrate)
       else (s.slv.link, E.ok)) := by
    generalize s.slv.link = l
    have hne : E.invalidBaudrate ≠ E.ok := by decide
    unfold Slave.setBaud Slave.bdrTab
    simp only [List.foldl_cons, List.foldl_nil]
    by_cases hb : b = 125 ∨ b = 250 ∨ b = 500 ∨ b = 1000
    · rw [if_pos hb]
      by_cases hm : l.mode = .init ∨ l.mode = .stopped
      · rw [if_pos hm]
        rcases hb with e | e | e | e <;> subst e <;> simp [Slave.setBaud1, Slave.hwSetBaud, hm]
      · rw [if_neg hm]
        rcases hb with e | e | e | e <;> subst e <;> simp [Slave.setBaud1, Slave.hwSetBaud, hm, hne]
    · rw [if_neg hb]
      have h1 : ∀ (q : Link × Err) t, t = 125 ∨ t = 250 ∨ t = 500 ∨ t = 1000 → Slave.setBaud1 b q t = q := by
        intro q t ht
        unfold Slave.setBaud1
        rw [if_neg]
        intro e; subst e; exact hb ht
      rw [h1 _ 250 (by omega), h1 _ 125 (by omega), h1 _ 500 (by omega), h1 _ 1000 (by omega)]
  have hr : r = (s.setSlv env { s.slv with link := (Slave.setBaud s.slv.link b).1 }, (Slave.setBaud s.slv.link b).2) := rfl
  rw [hr, hl]
  by_cases hb : b = 125 ∨ b = 250 ∨ b = 500 ∨ b = 1000
  · simp only [if_pos hb]
    by_cases hm : s.slv.link.mode = .init ∨ s.slv.link.mode = .stopped
    · simp only [if_pos hm]
      refine ⟨trivial, rfl, rfl, ?_⟩
      unfold setSlv
      dsimp only
      rw [if_neg (by omega)]
    · simp only [if_neg hm]
      refine ⟨trivial, ?_⟩
      unfold setSlv
      dsimp only
      rw [if_pos rfl]
  · simp only [if_neg hb]
    unfold setSlv
    dsimp only
    rw [if_pos rfl]

/-- a rate that is not supported, and a supported one, on a node not yet started -/
example : (exS.baudRate exA 300).2 = E.ok ∧ (exS.baudRate exA 300).1.slv.link.cur = exS.slv.link.cur ∧
    exS.slv.link.mode = .init ∧ (exS.baudRate exA 1000).1.slv.link.hwRate = 1000 := by decide +kernel

end Stack
end LiCan
