import Verif.Lemmas.SlaveTime
import Verif.Props.Sync
/-! # Process period, cycle time and one-shot callbacks: C17, C18, C56 -/
namespace LiCan
open Node Spec
namespace Spec

/-- Ticks between two readings of the 32-bit clock, wrap-around included. -/
def elapsed (t0 t1 : Nat) : Nat := (BitVec.ofNat 32 t1 - BitVec.ofNat 32 t0).toNat

/-- A process request is a frame in message object 0. -/
def isRequest : In → Prop
  | .frame _ 0 _ _ _ => True
  | _ => False

/-- Which function is registered when the first process request arrives (`cb`: registered before)? -/
def atFirstRequest (cb : Option Nat) : List In → Option Nat
  | [] => none
  | .frame _ 0 _ _ _ :: _ => cb
  | .firstCb f :: is => atFirstRequest f is
  | _ :: is => atFirstRequest cb is

/-- The input registers `f` for something else than the first process request. -/
def registersOther (f : Nat) : In → Prop
  | .allCb g => g = some f
  | .validCb _ _ g => g = some f
  | .invalidCb _ _ g => g = some f
  | .reqCb _ _ g => g = some f
  | .firstStatusCb g => g = some f
  | _ => False

/-- The input registers `f` for something else than the first status request. -/
def registersOtherS (f : Nat) : In → Prop
  | .allCb g => g = some f
  | .validCb _ _ g => g = some f
  | .invalidCb _ _ g => g = some f
  | .reqCb _ _ g => g = some f
  | .firstCb g => g = some f
  | _ => False

/-- How often an application function was called. -/
def timesCalled (f : Nat) (s : Slave) : Nat := s.node.log.countP fun e => match e with
  | .call g => g == f
  | _ => false

end Spec

namespace Slave

theorem sub32_eq (a b : Nat) : sub32 a b = elapsed b a := by
  unfold sub32 elapsed
  simp only [BitVec.toNat_sub, BitVec.toNat_ofNat]
  omega

theorem isReq_iff (x : In) : isReq x = false ↔ ¬ isRequest x := by
  cases x with
  | frame now obj dlc id data => cases obj <;> simp [isReq, isRequest]
  | _ => simp [isReq, isRequest]

theorem cycle_step {env : Env} {s s' : Slave} {x : In} (hi : ReqInv s) (h : step env s x = some s')
    (hc : s.sync.cycle ≤ env.perMax) : s'.sync.cycle ≤ env.perMax := by
  by_cases hx : isReq x = false
  · exact (TimeRel.step hx h).cyc hc
  · cases x with
    | frame now obj dlc id data =>
      have : obj = 0 := by simpa [isReq] using hx
      subst this
      rw [(request_time hi h).2.2]; exact hc
    | _ => simp [isReq] at hx

/-- C17.  After any history from power-on the cycle time is at most the maximum. -/
theorem C17_cycle_bounded (env : Env) (mem : Nat → List Byte) (is : List In) (s : Slave)
    (h : run env (Slave.boot mem) is = some s) : s.sync.cycle ≤ env.perMax := by
  refine (run_ind (fun s => ReqInv s ∧ s.sync.cycle ≤ env.perMax) ?_ is ⟨.boot mem, Nat.zero_le _⟩ h).2
  rintro s s' i ⟨a, b⟩ hs
  exact ⟨a.step hs, cycle_step a hs b⟩

/-- C17.  A configuration up to the maximum is taken as it is; a larger one is answered with
CONFIG_INVALID and replaced by the maximum.  Nothing else changes. -/
theorem C17_set_cycle (env : Env) (s : Slave) (t : Nat) :
    ((setCycle env s t).2 = E.ok ↔ t ≤ env.perMax) ∧ (env.perMax < t → (setCycle env s t).2 = E.configInvalid) ∧
    (setCycle env s t).1.sync.cycle = min t env.perMax ∧
    (setCycle env s t).1 = { s with sync := { s.sync with cycle := (setCycle env s t).1.sync.cycle } } := by
  refine ⟨?_, ?_, by rw [setCycle_eq], by rw [setCycle_eq]⟩
  · unfold setCycle; split
    · simp [*]
    · next h =>
      refine ⟨fun e => absurd (show E.configInvalid = E.ok from e) (by decide), fun h' => absurd h' h⟩
  · intro h; unfold setCycle; rw [if_neg (by omega)]

/-- C17.  The reported process period never exceeds the maximum, and a value within the maximum is
reported unchanged. -/
theorem C17_reported_period (env : Env) (s : Slave) :
    (getPeriode env s).2 = min s.sync.periode env.perMax := by
  unfold getPeriode
  simp only
  split
  · next h => show env.perMax = _; omega
  · next h => show s.sync.periode = _; omega

/-- C17.  The period reported after a process request is the time since the previous one, limited to
the maximum, whatever other frames and calls came in between and also if the clock wrapped around. -/
theorem C17_period_is_distance (env : Env) (s0 s1 s2 s3 : Slave) (h0 : ReqInv s0)
    (t0 t1 d0 d1 i0 i1 : Nat) (b0 b1 : List Byte) (xs : List In)
    (hA : step env s0 (.frame t0 0 d0 i0 b0) = some s1)
    (hx : ∀ x ∈ xs, ¬ isRequest x) (hxs : run env s1 xs = some s2)
    (hB : step env s2 (.frame t1 0 d1 i1 b1) = some s3) :
    (getPeriode env s3).2 = min (env.t2ms (elapsed t0 t1)) env.perMax := by
  have i1 := h0.step hA
  have i2 := i1.run hxs
  have a := request_time h0 hA
  have b := timeRel_run xs (fun x h => (isReq_iff x).2 (hx x h)) hxs
  have c := request_time i2 hB
  rw [C17_reported_period, c.2.1, b.stamp, a.1, sub32_eq]

/-- `ReqInv` holds after every history from power-on. -/
theorem reqInv_boot (env : Env) (mem : Nat → List Byte) (is : List In) (s : Slave)
    (h : run env (Slave.boot mem) is = some s) : ReqInv s := (ReqInv.boot mem).run h

/-- requests at 2^32 - 3 and 20 (clock wrapped around), a cycle time message in between; then at
5000 -/
example : ((exStart.bind fun s => run exEnv s
    [exReq 4294967293, exF5, .frame 0 2 8 0x002 [8, 0, 40, 0, 0, 0, 0, 0], exReq 20]).map fun s =>
      ((getPeriode exEnv s).2, s.sync.cycle)) = some (23, 40) ∧
    ((exStart.bind fun s => run exEnv s [exReq 20, exReq 5000]).map fun s =>
      ((getPeriode exEnv s).2, s.sync.periode)) = some (100, 4980) := by decide +kernel

/-- a cycle time of 101 ms -/
example : (setCycle exEnv (Slave.boot exMem) 101).2 = E.configInvalid ∧
    (setCycle exEnv (Slave.boot exMem) 101).1.sync.cycle = 100 := by decide

/-- C56.  Loss of the process requests is visible: if no request arrived for the maximum period and
`lcsa_process` ran (trigger) after that, the reported period is the maximum until the next request,
whatever else happens.  Needs that the maximum period is less than 65536 ticks. -/
theorem C56_bus_loss_partial (env : Env) (s0 s1 s2 s3 s4 : Slave) (h0 : ReqInv s0)
    (t0 t1 d0 i0 : Nat) (b0 : List Byte) (xs ys : List In)
    (hT : env.ms2t env.perMax < 65536) (hM : env.perMax ≤ env.t2ms (env.ms2t env.perMax))
    (hA : step env s0 (.frame t0 0 d0 i0 b0) = some s1)
    (hx : ∀ x ∈ xs, ¬ isRequest x) (hxs : run env s1 xs = some s2)
    (hE : env.ms2t env.perMax ≤ elapsed t0 t1) (hB : step env s2 (.trigger t1) = some s3)
    (hy : ∀ y ∈ ys, ¬ isRequest y) (hys : run env s3 ys = some s4) :
    (getPeriode env s4).2 = env.perMax := by
  have a := request_time h0 hA
  have b := timeRel_run xs (fun x h => (isReq_iff x).2 (hx x h)) hxs
  have c := timeRel_run ys (fun x h => (isReq_iff x).2 (hy x h)) hys
  have st : s2.sync.stamp = t0 := b.stamp.trans a.1
  have p3 : env.perMax ≤ s3.sync.periode := by
    injection hB with hB
    rw [← hB]
    unfold trigger
    simp only
    rw [sub32_eq, st]
    have e : (if u16 (env.ms2t env.perMax) < elapsed t0 t1 then u16 (env.ms2t env.perMax) else elapsed t0 t1) =
        env.ms2t env.perMax := by
      have : u16 (env.ms2t env.perMax) = env.ms2t env.perMax := Nat.mod_eq_of_lt hT
      rw [this]; split <;> omega
    rw [e]
    split
    · exact hM
    · omega
  rw [C17_reported_period]
  have := c.per p3
  omega

/-- C56.  And it is not reported as lost before: a trigger never makes the period longer than the
time since the last request. -/
theorem C56_no_false_alarm (env : Env) (s0 s1 s2 s3 : Slave) (h0 : ReqInv s0)
    (t0 t1 d0 i0 : Nat) (b0 : List Byte) (xs : List In)
    (hmono : ∀ a b, a ≤ b → env.t2ms a ≤ env.t2ms b)
    (hA : step env s0 (.frame t0 0 d0 i0 b0) = some s1)
    (hx : ∀ x ∈ xs, ¬ isRequest x) (hxs : run env s1 xs = some s2)
    (hB : step env s2 (.trigger t1) = some s3) :
    s3.sync.periode ≤ max s2.sync.periode (env.t2ms (elapsed t0 t1)) := by
  have a := request_time h0 hA
  have b := timeRel_run xs (fun x h => (isReq_iff x).2 (hx x h)) hxs
  have st : s2.sync.stamp = t0 := b.stamp.trans a.1
  injection hB with hB
  rw [← hB]
  unfold trigger
  simp only
  rw [sub32_eq, st]
  have hm : env.t2ms (if u16 (env.ms2t env.perMax) < elapsed t0 t1 then u16 (env.ms2t env.perMax) else elapsed t0 t1) ≤
      env.t2ms (elapsed t0 t1) := by
    apply hmono; split <;> omega
  generalize env.t2ms (if u16 (env.ms2t env.perMax) < elapsed t0 t1 then u16 (env.ms2t env.perMax) else elapsed t0 t1) = d at hm ⊢
  split
  · show d ≤ _; omega
  · omega

/-- request at 10 and 20, trigger at 119 and 120 -/
example : ((exStart.bind fun s => run exEnv s [exReq 10, exReq 20, .trigger 119]).map fun s => (getPeriode exEnv s).2) = some 99 ∧
    ((exStart.bind fun s => run exEnv s [exReq 10, exReq 20, .trigger 120, exF5, .trigger 121, .getPeriode]).map
      fun s => (getPeriode exEnv s).2) = some 100 := by decide +kernel

/-- Counterexample to C56 without the bound on the ticks: with a microsecond clock the maximum period
is 100000 ticks, which does not fit the 16-bit variable; a second after the last request 34 ms are
reported. -/
theorem C56_counterexample_microseconds :
    let env : Env := { exEnv with ms2t := fun t => t * 1000, t2ms := fun t => t / 1000 }
    env.ms2t env.perMax ≤ elapsed 20000 1020000 ∧
    ((exStart.bind fun s => run env s [exReq 10000, exReq 20000, .trigger 1020000]).map
      fun s => (getPeriode env s).2) = some 34 := by decide +kernel

/-! ## One-shot callbacks -/

theorem timesCalled_eq (f : Nat) (s : Slave) : timesCalled f s = (appCalls s.node.log).count f := by
  unfold timesCalled appCalls
  induction s.node.log with
  | nil => rfl
  | cons e l ih =>
    cases e with
    | call g => simp only [List.countP_cons, List.filterMap_cons, List.count_cons, ih]
    | _ => simp only [List.countP_cons, List.filterMap_cons, ih, Bool.false_eq_true, if_false, Nat.add_zero]

theorem count_toList (f : Nat) (o : Option Nat) : o.toList.count f = if o = some f then 1 else 0 := by
  cases o with
  | none => rfl
  | some g => simp [List.count_singleton]

theorem Avoid.step {env : Env} {f : Nat} {s s' : Slave} {x : In} (ha : Avoid f s) (hr : ¬ registersOther f x)
    (hi : ReqInv s) (h : Slave.step env s x = some s') : Avoid f s' := by
  by_cases hx : isReq x = false
  · have c := CbRel.step hx h
    refine ⟨?_, ?_, ?_, ?_, ?_⟩
    · rw [c.all]; unfold nextAll; split
      · exact hr
      · exact ha.all
    · intro i
      rcases c.valid i with e | e | ⟨t, n, g, rfl, e⟩ <;> rw [e]
      · exact ha.valid i
      · simp
      · exact hr
    · intro i
      rcases c.invalid i with e | e | ⟨t, n, g, rfl, e⟩ <;> rw [e]
      · exact ha.invalid i
      · simp
      · exact hr
    · intro i
      rcases c.req i with e | e | ⟨t, n, g, rfl, e⟩ <;> rw [e]
      · exact ha.req i
      · simp
      · exact hr
    · rcases c.status with e | e | e
      · rw [e]; exact ha.status
      · rw [e]; simp
      · rw [e] at hr; exact hr
  · cases x with
    | frame now obj dlc id data =>
      have : obj = 0 := by simpa [isReq] using hx
      subst this
      have c := ReqRel.step hi h
      exact ⟨by rw [c.all]; exact ha.all, by rw [c.valid]; exact ha.valid, by rw [c.invalid]; exact ha.invalid,
        by rw [c.req]; exact ha.req, by rw [c.sys]; exact ha.status⟩
    | _ => simp [isReq] at hx

/-- calls of `f` by one input, if `f` is registered for the first request only -/
theorem first_step {env : Env} {f : Nat} {s s' : Slave} {x : In} (ha : Avoid f s) (hi : ReqInv s)
    (h : step env s x = some s') :
    timesCalled f s' = timesCalled f s + (if isReq x = true ∧ s.sync.first = false ∧ s.sync.firstCb = some f then 1 else 0) ∧
    s'.sync.first = (s.sync.first || isReq x) := by
  by_cases hx : isReq x = false
  · have c := CbRel.step hx h
    rw [hx, c.first]
    refine ⟨?_, by simp⟩
    simp only [Bool.false_eq_true, false_and, if_false, Nat.add_zero]
    rw [timesCalled_eq, timesCalled_eq]
    rcases c.calls with e | ⟨-, -, e⟩
    · rw [e]
    · rw [e, List.count_append, count_toList, if_neg ha.status, Nat.zero_add]
  · cases x with
    | frame now obj dlc id data =>
      have : obj = 0 := by simpa [isReq] using hx
      subst this
      have c := ReqRel.step hi h
      refine ⟨?_, by rw [c.first]; simp [isReq]⟩
      obtain ⟨l, hl, e⟩ := c.calls
      have h0 : l.count f = 0 := by
        rw [List.count_eq_zero]
        intro hf
        rcases hl f hf with h | ⟨i, h | h | h⟩
        · exact ha.all h
        · exact ha.valid i h
        · exact ha.invalid i h
        · exact ha.req i h
      rw [timesCalled_eq, timesCalled_eq, e, List.count_append, List.count_append, h0]
      cases hf : s.sync.first
      · simp only [Bool.false_eq_true, if_false, count_toList, isReq, beq_self_eq_true, true_and]
        omega
      · simp
    | _ => simp [isReq] at hx

theorem first_run {env : Env} {f : Nat} (is : List In) : ∀ {s s' : Slave}, Avoid f s → ReqInv s →
    (∀ x ∈ is, ¬ registersOther f x) → run env s is = some s' →
    timesCalled f s' = timesCalled f s +
      (if s.sync.first = false ∧ atFirstRequest s.sync.firstCb is = some f then 1 else 0) := by
  induction is with
  | nil => intro s s' _ _ _ h; injection h with h; subst h; simp [atFirstRequest]
  | cons x is ih =>
    intro s s' ha hi hr h
    simp only [run, Option.bind_eq_some_iff] at h
    obtain ⟨s1, h1, h2⟩ := h
    have ha1 := ha.step (hr x (by simp)) hi h1
    have hi1 := hi.step h1
    obtain ⟨c1, c2⟩ := first_step ha hi h1
    have e := ih ha1 hi1 (fun y hy => hr y (by simp [hy])) h2
    rw [e, c1, c2]
    by_cases hx : isReq x = false
    · have cb := (CbRel.step hx h1).firstCb
      rw [cb, hx]
      simp only [Bool.false_eq_true, false_and, if_false, Nat.add_zero, Bool.or_false]
      congr 2
      have hn := (isReq_iff x).1 hx
      have : atFirstRequest (nextFirst s.sync.firstCb x) is = atFirstRequest s.sync.firstCb (x :: is) := by
        unfold nextFirst
        cases x with
        | frame now obj dlc id data =>
          cases obj with
          | zero => exact absurd trivial hn
          | succ k => rfl
        | _ => rfl
      rw [this]
    · cases x with
      | frame now obj dlc id data =>
        have : obj = 0 := by simpa [isReq] using hx
        subst this
        simp [isReq, atFirstRequest]
      | _ => simp [isReq] at hx

/-- C18.  After any history from power-on a function registered for the first process request (and for
nothing else) was called exactly once if it was the one registered when the first process request
arrived, otherwise never. -/
theorem C18_first_request (env : Env) (mem : Nat → List Byte) (is : List In) (s : Slave) (f : Nat)
    (hr : ∀ x ∈ is, ¬ registersOther f x) (h : run env (Slave.boot mem) is = some s) :
    timesCalled f s = if atFirstRequest none is = some f then 1 else 0 := by
  have := first_run (env := env) (f := f) is (s := Slave.boot mem) (s' := s)
    ⟨by simp [Slave.boot], by simp [Slave.boot], by simp [Slave.boot], by simp [Slave.boot], by simp [Slave.boot]⟩ (.boot mem) hr h
  rw [this]
  simp [timesCalled, Slave.boot, Node.boot]

/-- registered before the first of three requests -/
example : let is := [.init 250, .firstCb (some 7), exReq 1, exF5, exReq 2, exReq 3]
    atFirstRequest none is = some 7 ∧ ((run exEnv (Slave.boot exMem) is).map (timesCalled 7)) = some 1 := by
  decide +kernel

/-- C18.  A function registered after the first process request is never called: neither later
requests nor a new initialisation arm the notification again. -/
theorem C18_late_registration_lost (env : Env) (s s' : Slave) (is : List In) (f : Nat)
    (ha : Avoid f s) (hi : ReqInv s) (hf : s.sync.first = true) (hr : ∀ x ∈ is, ¬ registersOther f x)
    (h : run env s is = some s') : timesCalled f s' = timesCalled f s := by
  rw [first_run is ha hi hr h, hf]; simp

example : ((run exEnv (Slave.boot exMem) [.init 250, exReq 1, .firstCb (some 7), exReq 2, .init 250, exReq 3]).map
    (timesCalled 7)) = some 0 := by decide +kernel

theorem AvoidS.step {env : Env} {f : Nat} {s s' : Slave} {x : In} (ha : AvoidS f s) (hr : ¬ registersOtherS f x)
    (hi : ReqInv s) (h : Slave.step env s x = some s') : AvoidS f s' := by
  by_cases hx : isReq x = false
  · have c := CbRel.step hx h
    refine ⟨?_, ?_, ?_, ?_, ?_⟩
    · rw [c.all]; unfold nextAll; split
      · exact hr
      · exact ha.all
    · intro i
      rcases c.valid i with e | e | ⟨t, n, g, rfl, e⟩ <;> rw [e]
      · exact ha.valid i
      · simp
      · exact hr
    · intro i
      rcases c.invalid i with e | e | ⟨t, n, g, rfl, e⟩ <;> rw [e]
      · exact ha.invalid i
      · simp
      · exact hr
    · intro i
      rcases c.req i with e | e | ⟨t, n, g, rfl, e⟩ <;> rw [e]
      · exact ha.req i
      · simp
      · exact hr
    · rw [c.firstCb]; unfold nextFirst; split
      · exact hr
      · exact ha.request
  · cases x with
    | frame now obj dlc id data =>
      have : obj = 0 := by simpa [isReq] using hx
      subst this
      have c := ReqRel.step hi h
      exact ⟨by rw [c.all]; exact ha.all, by rw [c.valid]; exact ha.valid, by rw [c.invalid]; exact ha.invalid,
        by rw [c.req]; exact ha.req, by rw [c.firstCb]; exact ha.request⟩
    | _ => simp [isReq] at hx

/-- calls of `f` by one input, if `f` is registered for the first status request only -/
theorem status_step {env : Env} {f : Nat} {s s' : Slave} {x : In} (ha : AvoidS f s) (hi : ReqInv s)
    (h : step env s x = some s') :
    (timesCalled f s' = timesCalled f s ∨
      (s.sys.first = false ∧ s'.sys.first = true ∧ timesCalled f s' = timesCalled f s + 1)) ∧
    (s.sys.first = true → (∀ b, x ≠ .init b) → s'.sys.first = true) := by
  by_cases hx : isReq x = false
  · have c := CbRel.step hx h
    refine ⟨?_, c.keep⟩
    rw [timesCalled_eq, timesCalled_eq]
    rcases c.calls with e | ⟨e1, e2, e⟩
    · rw [e]; exact .inl rfl
    · rw [e, List.count_append, count_toList]
      split
      · exact .inr ⟨e1, e2, Nat.add_comm _ _⟩
      · exact .inl (Nat.zero_add _)
  · cases x with
    | frame now obj dlc id data =>
      have : obj = 0 := by simpa [isReq] using hx
      subst this
      have c := ReqRel.step hi h
      rw [c.sys]
      refine ⟨.inl ?_, fun h _ => h⟩
      obtain ⟨l, hl, e⟩ := c.calls
      have h0 : l.count f = 0 := by
        rw [List.count_eq_zero]
        intro hf
        rcases hl f hf with h | ⟨i, h | h | h⟩
        · exact ha.all h
        · exact ha.valid i h
        · exact ha.invalid i h
        · exact ha.req i h
      rw [timesCalled_eq, timesCalled_eq, e, List.count_append, List.count_append, h0]
      cases hf : s.sync.first
      · simp only [Bool.false_eq_true, if_false, count_toList, if_neg ha.request]
        omega
      · simp
    | _ => simp [isReq] at hx

/-- C18.  A function registered for the first status request (and for nothing else) is called at most
once until the next initialisation, in every history. -/
theorem C18_first_status_once (env : Env) (s s' : Slave) (is : List In) (f : Nat)
    (ha : AvoidS f s) (hi : ReqInv s) (hr : ∀ x ∈ is, ¬ registersOtherS f x) (hn : ∀ b, In.init b ∉ is)
    (h : run env s is = some s') :
    timesCalled f s' ≤ timesCalled f s + (if s.sys.first then 0 else 1) ∧
    (s.sys.first = true → s'.sys.first = true) ∧
    (timesCalled f s' ≠ timesCalled f s → s'.sys.first = true) := by
  induction is generalizing s with
  | nil => injection h with h; subst h; exact ⟨by split <;> omega, id, fun h => absurd rfl h⟩
  | cons x is ih =>
    simp only [run, Option.bind_eq_some_iff] at h
    obtain ⟨s1, h1, h2⟩ := h
    obtain ⟨c1, c2⟩ := status_step ha hi h1
    have hx : ∀ b, x ≠ .init b := fun b e => hn b (by simp [e])
    have r := ih s1 (ha.step (hr x (by simp)) hi h1) (hi.step h1) (fun y hy => hr y (by simp [hy]))
      (fun b hb => hn b (by simp [hb])) h2
    obtain ⟨r1, r2, r3⟩ := r
    rcases c1 with e | ⟨e1, e2, e3⟩
    · refine ⟨?_, fun h => r2 (c2 h hx), fun h => ?_⟩
      · rw [e] at r1
        cases hf : s.sys.first
        · simp only [Bool.false_eq_true, if_false]; split at r1 <;> omega
        · rw [c2 hf hx] at r1; simpa using r1
      · rw [e] at r3; exact r3 h
    · refine ⟨?_, fun h => r2 (c2 h hx), fun _ => r2 e2⟩
      rw [e1]; rw [e2, e3] at r1; simpa using r1

/-- C18.  The first status request that reaches a module of the table calls the registered function:
the message has eight bytes, command 1, and is addressed to a registered module or, if there are
modules, to all. -/
theorem C18_first_status_called (env : Env) (s s' : Slave) (nr : Nat) (src : List Byte) (f : Nat) (e : Err)
    (h1 : s.sys.first = false) (hf : s.sys.firstCb = some f) (hc : at8 src 0 = 1)
    (ha : (nr = 1 ∧ s.node.nrMod ≠ 0) ∨ (nr ≠ 1 ∧ s.node.findNr env nr ≠ none))
    (h : sysMsg env s nr 8 src = some (s', e)) :
    timesCalled f s' = timesCalled f s + 1 ∧ s'.sys.first = true := by
  have key : s'.sys.first = true := by
    unfold sysMsg at h
    rw [if_neg (by simp)] at h
    simp only at h
    have hd : ¬ (nr ≠ 1 ∧ (if nr = 1 then none else findNr env s.node nr) = none) := by
      rcases ha with ⟨a, -⟩ | ⟨a, b⟩
      · simp [a]
      · rw [if_neg a]; simp [b]
    rw [if_neg hd, if_neg (by rcases ha with ⟨a, b⟩ | ⟨a, b⟩ <;> simp [a, b])] at h
    rw [hc] at h
    simp only at h
    generalize (if nr = 1 then none else findNr env s.node nr) = dst at h
    obtain ⟨n, -, en⟩ := statusRequest_eff env s dst
    have fr : (statusRequest env s dst).1.sys.first = true := by rw [en]; rfl
    generalize statusRequest env s dst = r at h fr
    split at h
    · injection h with h; rw [h] at fr; exact fr
    · split at h
      · simp only [Option.map_eq_some_iff] at h
        obtain ⟨x, -, hx⟩ := h
        injection hx with hx _
        rw [← hx]; exact fr
      · injection h with h; rw [h] at fr; exact fr
  refine ⟨?_, key⟩
  have c := (sysMsg_eff h).calls.1
  rw [if_pos ⟨hc, key, h1⟩, hf] at c
  rw [timesCalled_eq, timesCalled_eq, c]
  simp

/-- two status requests to module 5, an initialisation clears the callback -/
example : ((exStart.bind fun s => run exEnv s [.firstStatusCb (some 7), .frame 0 2 8 0x012 [1, 0, 0, 0, 0, 0, 0, 0],
      .frame 0 2 8 0x012 [1, 0, 0, 0, 0, 0, 0, 0]]).map (timesCalled 7)) = some 1 := by decide +kernel

end Slave
end LiCan
