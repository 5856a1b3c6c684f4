import Verif.Spec.PeriodIrq
import Verif.Lemmas.NodeExample
/-!
# C137: the reported process period with requests arriving during the calls
-/
namespace LiCan
open Spec

namespace PerIrq
variable {env : Env}

/-- what the application should be told -/
def right (env : Env) (g : Watch) : Nat := min env.perMax (max g.iv g.seen)

theorem dtime_silence (env : Env) (t st : Nat) : dtime env t st = silence env t st := by
  unfold dtime silence
  dsimp only
  rw [show Slave.sub32 t st = ticks t st from rfl]
  congr 1
  split <;> omega

/-- the state of a call after a request that came apart from it -/
def Fit (env : Env) (w : PerIrq) (g : Watch) : Prop :=
  match w.pc with
  | some (.clock t) => g.cur = some t ∧ min env.perMax w.per = right env g
  | some (.load st) => st = g.last ∧ min env.perMax w.per = right env g
  | some (.diff d) => (∃ t, g.cur = some t ∧ d = silence env t g.last) ∧ min env.perMax w.per = right env g
  | some (.write d) => w.per < d ∧ min env.perMax d = right env g
  | some .clamp => env.perMax ≤ right env g
  | some .ret => w.per = right env g
  | _ => min env.perMax w.per = right env g

theorem fit_step (e : PEv) {w : PerIrq} {g : Watch} (hs : w.stamp = g.last) (hf : g.apart = true → Fit env w g) :
    (w.step env e).stamp = (g.next env w e).last ∧
    ((g.next env w e).apart = true → Fit env (w.step env e) (g.next env w e)) := by
  obtain ⟨stamp, per, pc, out⟩ := w
  subst hs
  cases e with
  | trigger early =>
    cases pc with
    | none => exact ⟨rfl, hf⟩
    | some p => exact ⟨rfl, hf⟩
  | ask =>
    cases pc with
    | none => exact ⟨rfl, hf⟩
    | some p => exact ⟨rfl, hf⟩
  | request t1 t2 =>
    refine ⟨rfl, fun h => ?_⟩
    have h' : AtEntry pc = true := h
    have e1 : min env.perMax (env.t2ms (Slave.sub32 t1 g.last)) = min env.perMax (max (env.t2ms (ticks t1 g.last)) 0) := by
      rw [Nat.max_zero]; rfl
    match pc, h' with
    | none, _ => exact e1
    | some (.trig _), _ => exact e1
    | some .get, _ => exact e1
  | main t =>
    cases pc with
    | none => exact ⟨rfl, hf⟩
    | some p =>
      cases p with
      | trig early =>
        cases early with
        | false => exact ⟨rfl, fun h => ⟨rfl, hf h⟩⟩
        | true => exact ⟨rfl, fun h => ⟨rfl, hf h⟩⟩
      | clock c =>
        refine ⟨rfl, fun h => ?_⟩
        obtain ⟨a, b⟩ := hf h
        exact ⟨⟨c, a, dtime_silence env c g.last⟩, b⟩
      | load st =>
        refine ⟨rfl, fun h => ?_⟩
        obtain ⟨a, b⟩ : st = g.last ∧ _ := hf h
        exact ⟨⟨t, rfl, by rw [a]; exact dtime_silence env t g.last⟩, b⟩
      | diff d =>
        have hl : (g.done env).last = g.last := by unfold Watch.done; split <;> rfl
        have ha : (g.done env).apart = g.apart := by unfold Watch.done; split <;> rfl
        refine ⟨hl.symm, fun h => ?_⟩
        obtain ⟨⟨c, a1, a2⟩, b⟩ : (∃ t, g.cur = some t ∧ d = silence env t g.last) ∧ min env.perMax per = right env g :=
          hf (ha.symm.trans h)
        have hd : g.done env = { g with seen := max g.seen d, cur := none } := by
          unfold Watch.done
          rw [a1, a2]
        have hr : right env { g with seen := max g.seen d, cur := none } = min env.perMax (max g.iv (max g.seen d)) := rfl
        have hr0 : right env g = min env.perMax (max g.iv g.seen) := rfl
        show Fit env { stamp := g.last, per := per, pc := if per < d then some (.write d) else none, out := out } (g.done env)
        rw [hd]
        by_cases hc : per < d
        · rw [if_pos hc]
          refine ⟨hc, ?_⟩
          rw [hr]
          omega
        · rw [if_neg hc]
          show min env.perMax per = _
          rw [hr]
          omega
      | write d =>
        refine ⟨rfl, fun h => ?_⟩
        exact (hf h).2
      | get =>
        refine ⟨rfl, fun h => ?_⟩
        have b : min env.perMax per = right env g := hf h
        show Fit env { stamp := g.last, per := per, pc := some (if env.perMax < per then .clamp else .ret), out := out } g
        by_cases hc : env.perMax < per
        · rw [if_pos hc]
          show env.perMax ≤ _
          omega
        · rw [if_neg hc]
          show per = _
          omega
      | clamp =>
        refine ⟨rfl, fun h => ?_⟩
        have b : env.perMax ≤ right env g := hf h
        show env.perMax = right env g
        have : right env g ≤ env.perMax := Nat.min_le_left _ _
        omega
      | ret =>
        refine ⟨rfl, fun h => ?_⟩
        have b : per = right env g := hf h
        show min env.perMax per = right env g
        have : right env g ≤ env.perMax := Nat.min_le_left _ _
        omega

theorem fit_run (es : List PEv) : ∀ (w : PerIrq) (g : Watch), w.stamp = g.last → (g.apart = true → Fit env w g) →
    (watch env w g es).1.stamp = (watch env w g es).2.last ∧
    ((watch env w g es).2.apart = true → Fit env (watch env w g es).1 (watch env w g es).2) := by
  induction es with
  | nil => intro w g a b; exact ⟨a, b⟩
  | cons e es ih =>
    intro w g a b
    obtain ⟨c, d⟩ := fit_step e a b
    exact ih _ _ c d

end PerIrq

/-- **C137.**  Whatever happened before: if the last process request came between two calls or at the entry of
one, the application is told the time between the last two requests or the longest time without a request
found since, whichever is longer, limited to the maximum.  The full claim, for requests at any point, is false
(`C137_counterexample_late`, `.._short`, `.._over`, `.._max`, `.._early`). -/
theorem C137_partial (env : Env) (w : PerIrq) (iv : Nat) (es : List PerIrq.PEv) (t : Nat)
    (ha : (watch env w ⟨iv, w.stamp, 0, none, false⟩ es).2.apart = true)
    (hp : (watch env w ⟨iv, w.stamp, 0, none, false⟩ es).1.pc = some .ret) :
    ((watch env w ⟨iv, w.stamp, 0, none, false⟩ es).1.main env t).out =
      min env.perMax (max (watch env w ⟨iv, w.stamp, 0, none, false⟩ es).2.iv (watch env w ⟨iv, w.stamp, 0, none, false⟩ es).2.seen) ::
      (watch env w ⟨iv, w.stamp, 0, none, false⟩ es).1.out := by
  have h := (PerIrq.fit_run (env := env) es w ⟨iv, w.stamp, 0, none, false⟩ rfl (fun h => nomatch h)).2 ha
  generalize watch env w ⟨iv, w.stamp, 0, none, false⟩ es = q at *
  unfold PerIrq.Fit at h
  rw [hp] at h
  unfold PerIrq.main
  rw [hp]
  show q.1.per :: q.1.out = _
  rw [show q.1.per = PerIrq.right env q.2 from h]
  rfl

/-- Without interruption the steps are the functions of the slave model. -/
theorem C137_steps (env : Env) (s : Slave) (out : List Nat) (t : Nat) (b : Bool) (dlc : Nat) :
    PerIrq.run env ⟨s.sync.stamp, s.sync.periode, none, out⟩ [.trigger b, .main t, .main t, .main t, .main t] =
      ⟨(s.trigger env t).sync.stamp, (s.trigger env t).sync.periode, none, out⟩ ∧
    PerIrq.run env ⟨s.sync.stamp, s.sync.periode, none, out⟩ [.ask, .main t, .main t, .main t] =
      ⟨(s.getPeriode env).1.sync.stamp, (s.getPeriode env).1.sync.periode, none, (s.getPeriode env).2 :: out⟩ ∧
    PerIrq.run env ⟨s.sync.stamp, s.sync.periode, none, out⟩ [.request t t] =
      ⟨(s.rxProcessMain env t dlc).sync.stamp, (s.rxProcessMain env t dlc).sync.periode, none, out⟩ := by
  refine ⟨?_, ?_, rfl⟩
  · have key : ∀ w : PerIrq, w = ⟨s.sync.stamp, s.sync.periode, some (.diff (PerIrq.dtime env t s.sync.stamp)), out⟩ →
        (w.main env t).main env t = ⟨(s.trigger env t).sync.stamp, (s.trigger env t).sync.periode, none, out⟩ := by
      rintro w rfl
      have e : s.trigger env t = if s.sync.periode < PerIrq.dtime env t s.sync.stamp then
          { s with sync := { s.sync with periode := PerIrq.dtime env t s.sync.stamp } } else s := rfl
      rw [e]
      by_cases h : s.sync.periode < PerIrq.dtime env t s.sync.stamp
      · rw [if_pos h]
        simp only [PerIrq.main, if_pos h]
      · rw [if_neg h]
        simp only [PerIrq.main, if_neg h]
    cases b
    · exact key _ rfl
    · exact key _ rfl
  · unfold Slave.getPeriode
    by_cases h : env.perMax < s.sync.periode
    · simp only [PerIrq.run, List.foldl, PerIrq.step, PerIrq.main, if_pos h, if_true]
    · simp only [PerIrq.run, List.foldl, PerIrq.step, PerIrq.main, if_neg h, if_true]

/-- no request comes between the last check of a get call and its return -/
def Calm (env : Env) (w : PerIrq) : List PerIrq.PEv → Prop
  | [] => True
  | e :: es => (∀ t1 t2, e = .request t1 t2 → w.pc ≠ some .ret) ∧ Calm env (w.step env e) es

theorem PerIrq.calm_step {env : Env} {w : PerIrq} (e : PerIrq.PEv)
    (hc : ∀ t1 t2, e = .request t1 t2 → w.pc ≠ some .ret)
    (h : (w.pc = some .ret → w.per ≤ env.perMax) ∧ ∀ v ∈ w.out, v ≤ env.perMax) :
    ((w.step env e).pc = some .ret → (w.step env e).per ≤ env.perMax) ∧ ∀ v ∈ (w.step env e).out, v ≤ env.perMax := by
  obtain ⟨stamp, per, pc, out⟩ := w
  obtain ⟨h1, h2⟩ := h
  cases e with
  | trigger early =>
    cases pc with
    | none => exact ⟨nofun, h2⟩
    | some p => exact ⟨h1, h2⟩
  | ask =>
    cases pc with
    | none => exact ⟨nofun, h2⟩
    | some p => exact ⟨h1, h2⟩
  | request t1 t2 => exact ⟨fun h => absurd h (hc t1 t2 rfl), h2⟩
  | main t =>
    cases pc with
    | none => exact ⟨nofun, h2⟩
    | some p =>
      cases p with
      | trig early => cases early <;> exact ⟨nofun, h2⟩
      | clock c => exact ⟨nofun, h2⟩
      | load st => exact ⟨nofun, h2⟩
      | diff d =>
        refine ⟨fun h => ?_, h2⟩
        have h' : (if per < d then some (PerPc.write d) else none) = some .ret := h
        by_cases hd : per < d
        · rw [if_pos hd] at h'; cases h'
        · rw [if_neg hd] at h'; cases h'
      | write d => exact ⟨nofun, h2⟩
      | get =>
        refine ⟨fun h => ?_, h2⟩
        have h' : some (if env.perMax < per then PerPc.clamp else .ret) = some .ret := h
        by_cases hd : env.perMax < per
        · rw [if_pos hd] at h'; cases h'
        · exact Nat.le_of_not_lt hd
      | clamp => exact ⟨fun _ => Nat.le_refl _, h2⟩
      | ret =>
        refine ⟨nofun, fun v hv => ?_⟩
        rcases List.mem_cons.mp (show v ∈ per :: out from hv) with e | e
        · rw [e]; exact h1 rfl
        · exact h2 v e

/-- The application is never told more than the maximum, for requests at all points but one: between the check
against the maximum and the return (`C137_counterexample_over`). -/
theorem C137_bounded (env : Env) (es : List PerIrq.PEv) : ∀ (w : PerIrq), w.pc = none → w.out = [] → Calm env w es →
    ∀ v ∈ (PerIrq.run env w es).out, v ≤ env.perMax := by
  have key : ∀ (es : List PerIrq.PEv) (w : PerIrq), Calm env w es →
      ((w.pc = some .ret → w.per ≤ env.perMax) ∧ ∀ v ∈ w.out, v ≤ env.perMax) →
      ∀ v ∈ (PerIrq.run env w es).out, v ≤ env.perMax := by
    intro es
    induction es with
    | nil => intro w _ h; exact h.2
    | cons e es ih => intro w hc h; exact ih _ hc.2 (PerIrq.calm_step e hc.1 h)
  intro w h1 h2 hc
  exact key es w hc ⟨fun h => absurd (h1.symm.trans h) nofun, fun v hv => absurd (h2 ▸ hv) nofun⟩

/-- A request between the computation of the time and its comparison does no harm if the clock did not go
round since: the trigger call finds the new period and leaves it. -/
theorem C137_compare (env : Env) (hm : ∀ a b, a ≤ b → env.t2ms a ≤ env.t2ms b) (st per : Nat) (out : List Nat) (c t1 t2 t : Nat)
    (hc : ticks c st ≤ ticks t1 st) :
    PerIrq.run env ⟨st, per, some (.clock c), out⟩ [.main t, .request t1 t2, .main t] =
      ⟨t2, env.t2ms (ticks t1 st), none, out⟩ := by
  have h : ¬ env.t2ms (Slave.sub32 t1 st) < PerIrq.dtime env c st := by
    rw [PerIrq.dtime_silence]
    have : silence env c st ≤ env.t2ms (ticks t1 st) := hm _ _ (Nat.le_trans (Nat.min_le_right _ _) hc)
    exact Nat.not_lt.mpr this
  show (⟨t2, env.t2ms (Slave.sub32 t1 st), if env.t2ms (Slave.sub32 t1 st) < PerIrq.dtime env c st then
    some (.write (PerIrq.dtime env c st)) else none, out⟩ : PerIrq) = _
  rw [if_neg h]
  rfl

/-! ## Cases: a clock of 1 ms, maximum 100 ms -/

/-- after `lcsa_init`: clock 0, period at the maximum -/
def per0 : PerIrq := ⟨0, 100, none, []⟩

/-- requests every 10 ms -/
def perReqs : List PerIrq.PEv := [.request 10 10, .request 20 20]

/-- the application asks and the call runs through -/
def perAsk (t : Nat) : List PerIrq.PEv := [.ask, .main t, .main t, .main t]

/-- the watch at the start -/
def perG : Watch := ⟨0, 0, 0, none, false⟩

/-- the hypotheses of `C137_partial` are met: the request at 30 disturbs a call, that at 40 comes at the entry of
one; the period is 10, then 25 ms without a request are found -/
def perFine : List PerIrq.PEv := perReqs ++ [.trigger false, .main 29, .request 30 30, .main 30, .main 30, .main 30, .trigger false,
  .request 40 40, .main 65, .main 65, .main 65, .main 65, .ask, .main 66]

example : (watch Node.exEnv per0 perG perFine).2 = ⟨10, 40, 25, none, true⟩ ∧
    (watch Node.exEnv per0 perG perFine).1.pc = some .ret ∧
    ((watch Node.exEnv per0 perG perFine).1.main Node.exEnv 66).out = [25] := by
  decide +kernel

example : Calm Node.exEnv per0 (perReqs ++ perAsk 21 ++ [.ask, .request 300 300, .main 301, .main 301, .main 301]) ∧
    (PerIrq.run Node.exEnv per0 (perReqs ++ perAsk 21 ++ [.ask, .request 300 300, .main 301, .main 301, .main 301])).out = [100, 10] := by
  refine ⟨?_, by decide +kernel⟩
  repeat (first | exact trivial | (refine ⟨fun _ _ h => ?_, ?_⟩; · first | (cases h; done) | decide +kernel))

example : ticks 29 20 ≤ ticks 30 20 := by decide

/-- **C137** is false: requests every 10 ms; one comes after the trigger call read the clock and before it reads
the time stamp.  The difference is negative, the application is told that requests are lost (100 ms). -/
theorem C137_counterexample_late :
    (watch Node.exEnv per0 perG (perReqs ++ [.trigger false, .main 29, .request 30 30, .main 30, .main 30, .main 30] ++ perAsk 31)).2 =
      ⟨10, 30, 0, none, false⟩ ∧
    (PerIrq.run Node.exEnv per0 (perReqs ++ [.trigger false, .main 29, .request 30 30, .main 30, .main 30, .main 30] ++ perAsk 31)).out =
      [100] := by
  decide +kernel

/-- The other order of the two readings: the call finds 25 ms, neither the time between two requests (10) nor
the time since the last (15). -/
theorem C137_counterexample_early :
    (PerIrq.run Node.exEnv per0 (perReqs ++ [.trigger true, .main 29, .request 30 30, .main 45, .main 45, .main 45] ++ perAsk 45)).out =
      [25] := by
  decide +kernel

/-- A request after the comparison: 90 ms between the last two requests are overwritten with 15. -/
theorem C137_counterexample_short :
    (watch Node.exEnv per0 perG (perReqs ++ [.trigger false, .main 35, .main 35, .main 35, .request 110 110, .main 110] ++ perAsk 111)).2.iv = 90 ∧
    (PerIrq.run Node.exEnv per0 (perReqs ++ [.trigger false, .main 35, .main 35, .main 35, .request 110 110, .main 110] ++ perAsk 111)).out =
      [15] := by
  decide +kernel

/-- A request between the check against the maximum and the return: more than the maximum is returned. -/
theorem C137_counterexample_over :
    (PerIrq.run Node.exEnv per0 (perReqs ++ [.ask, .main 299, .request 300 300, .main 300])).out = [280] := by
  decide +kernel

/-- A request between the check and the clamping: the maximum replaces the 10 ms between the last two requests, in
this and in the following calls. -/
theorem C137_counterexample_max :
    (watch Node.exEnv per0 perG (perReqs ++ [.request 300 300, .ask, .main 309, .request 310 310, .main 310, .main 310] ++ perAsk 311)).2.iv = 10 ∧
    (PerIrq.run Node.exEnv per0 (perReqs ++ [.request 300 300, .ask, .main 309, .request 310 310, .main 310, .main 310] ++ perAsk 311)).out =
      [100, 100] := by
  decide +kernel

end LiCan
