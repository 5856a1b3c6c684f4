import Verif.Lemmas.MonTwin
import Verif.Props.MonExample
/-! # C107: the monitor does not change what the slave does on the bus -/
namespace LiCan
namespace Spec
open Node Mon

/-- What an input of a slave with monitor controller is to a slave built without `LI_CAN_SLV_MON`: frames on
the second controller do not exist, templates have no monitor functions. -/
def withoutMon (env : Env) (s : Slave) : MIn → Option Slave
  | .main now obj dlc id data => Slave.step env s (.frame now obj dlc id data)
  | .mon _ _ _ _ _ => some s
  | .write p v => some { s with node := { s.node with mem := upd s.node.mem p v } }
  | .add tpl _ nr rx tx => Slave.step env s (.table (.add tpl nr rx tx))
  | .silentAwakeBy typ nr st => Slave.step env s (.table (.silentAwakeBy typ nr st))
  | .setActive typ => Slave.step env s (.table (.setActive typ))
  | .setCritical typ => Slave.step env s (.table (.setCritical typ))
  | .changeNr typ nr act => Slave.step env s (.table (.changeNr typ nr act))
  | .setMode m => Slave.step env s (.setMode m)
  | .setBaud b => Slave.step env s (.setBaud b)
  | .trigger now => Slave.step env s (.trigger now)
  | .setCycle t => Slave.step env s (.setCycle t)
  | .allCb f => Slave.step env s (.allCb f)
  | .validCb typ nr f => Slave.step env s (.validCb typ nr f)
  | .invalidCb typ nr f => Slave.step env s (.invalidCb typ nr f)
  | .reqCb typ nr f => Slave.step env s (.reqCb typ nr f)

/-- the same history on such a slave -/
def runWithoutMon (env : Env) : Slave → List MIn → Option Slave
  | s, [] => some s
  | s, i :: is => (withoutMon env s i).bind fun s' => runWithoutMon env s' is

/-- no registration of the history ends with an error -/
def Complete (me : MonEnv) : Mon → List MIn → Prop
  | _, [] => True
  | d, i :: is =>
    (match i with
      | .add tpl mt nr rx tx => Mon.regErr me d tpl mt nr rx tx = E.ok
      | _ => True) ∧ ∀ d', Mon.step me d i = some d' → Complete me d' is

/-- everything the slave did except calls of the callbacks of requests and process images: frames handed to
the driver, silent/awake, type, time and reset notifications, waiting times -/
def withoutCalls (l : List Ev) : List Ev := l.filter fun e => match e with
  | .call _ => false
  | _ => true

/-- The slave with monitor and the slave without: the same actions in the same order; the same module table,
message objects, application memory and pending errors; the same node mode, baud rates and driver state; the
same state of the system messages; the same cycle time and period. -/
structure SameSlave (d : Mon) (s : Slave) : Prop where
  acts  : withoutCalls s.node.log = withoutCalls d.s.node.log
  node  : s.node = { d.s.node with log := s.node.log }
  link  : s.link = d.s.link
  sys   : s.sys = d.s.sys
  cycle : s.sync.cycle = d.s.sync.cycle
  per   : s.sync.periode = d.s.sync.periode

end Spec

namespace Mon
open Node Spec Slave

theorem alone_eq (env : Env) (s : Slave) (i : MIn) : alone env s i = withoutMon env s i := by cases i <;> rfl

theorem withoutCalls_eq (l : List Ev) : withoutCalls l = vis l := by
  unfold withoutCalls vis
  congr 1
  funext e
  cases e <;> rfl

theorem sameSlave_of_twin {d : Mon} {s : Slave} (h : Twin d.s s) : SameSlave d s :=
  ⟨by rw [withoutCalls_eq, withoutCalls_eq]; exact h.node.evs, h.node.rest, h.link, h.sys, h.cyc, h.per⟩

theorem run_twin {me : MonEnv} (hm : ∀ k, me.monOk k = true) (hd : ∀ k, me.modeOk k = true) (xs : List MIn) :
    ∀ {d d' : Mon} {b : Slave}, Twin d.s b → Complete me d xs → run me d xs = some d' →
      ∃ b', runWithoutMon me.toEnv b xs = some b' ∧ Twin d'.s b' := by
  induction xs with
  | nil => intro d d' b h _ hr; cases hr; exact ⟨b, rfl, h⟩
  | cons x xs ih =>
    intro d d' b h hc hr
    obtain ⟨d1, h1, h2⟩ := Option.bind_eq_some_iff.1 hr
    have hreg : Registered me d x := by
      have := hc.1
      cases x <;> first | exact this | exact trivial
    obtain ⟨b1, e1, t1⟩ := step_twin hm hd h hreg h1
    obtain ⟨b2, e2, t2⟩ := ih t1 (hc.2 d1 h1) h2
    rw [alone_eq] at e1
    refine ⟨b2, ?_, t2⟩
    unfold runWithoutMon
    rw [e1]
    exact e2

theorem run_twin_none {me : MonEnv} (hm : ∀ k, me.monOk k = true) (hd : ∀ k, me.modeOk k = true) (xs : List MIn) :
    ∀ {d : Mon} {b : Slave}, Twin d.s b → Complete me d xs → run me d xs = none → runWithoutMon me.toEnv b xs = none := by
  induction xs with
  | nil => intro d b h _ hr; cases hr
  | cons x xs ih =>
    intro d b h hc hr
    have hreg : Registered me d x := by
      have := hc.1
      cases x <;> first | exact this | exact trivial
    unfold run at hr
    unfold runWithoutMon
    cases hs : step me d x with
    | none => rw [← alone_eq, step_twin_none h hs]; rfl
    | some d1 =>
      obtain ⟨b1, e1, t1⟩ := step_twin hm hd h hreg hs
      rw [hs] at hr
      rw [← alone_eq, e1]
      exact ih t1 (hc.2 d1 hs) hr

/-- C107: in every history in which the drivers accept what they are asked and no registration fails, a slave
with monitor controller does on the bus exactly what a slave without one does. -/
theorem C107_transparent {me : MonEnv} (hm : ∀ k, me.monOk k = true) (hd : ∀ k, me.modeOk k = true) (mem : Nat → List Byte) (baud : Nat)
    (xs : List MIn) {d : Mon} (hc : Complete me (Mon.init me (Mon.boot mem) baud).1 xs)
    (hr : run me (Mon.init me (Mon.boot mem) baud).1 xs = some d) :
    ∃ s, runWithoutMon me.toEnv (Slave.init me.toEnv (Slave.boot mem) baud).1 xs = some s ∧ SameSlave d s := by
  have h0 : Twin (Mon.init me (Mon.boot mem) baud).1.s (Slave.init me.toEnv (Slave.boot mem) baud).1 := by
    rw [(init_twin hm (Mon.boot mem) baud).1]
    exact .refl _
  obtain ⟨s, e, t⟩ := run_twin hm hd xs h0 hc hr
  exact ⟨s, e, sameSlave_of_twin t⟩

/-- the monitor does not cause the endless loop of C10 either: where the slave with monitor does not return,
the slave without does not -/
theorem C107_no_new_hang {me : MonEnv} (hm : ∀ k, me.monOk k = true) (hd : ∀ k, me.modeOk k = true) (mem : Nat → List Byte) (baud : Nat)
    (xs : List MIn) (hc : Complete me (Mon.init me (Mon.boot mem) baud).1 xs)
    (hr : run me (Mon.init me (Mon.boot mem) baud).1 xs = none) :
    runWithoutMon me.toEnv (Slave.init me.toEnv (Slave.boot mem) baud).1 xs = none := by
  have h0 : Twin (Mon.init me (Mon.boot mem) baud).1.s (Slave.init me.toEnv (Slave.boot mem) baud).1 := by
    rw [(init_twin hm (Mon.boot mem) baud).1]
    exact .refl _
  exact run_twin_none hm hd xs h0 hc hr

/-- the result of the initialisation is the same, too -/
theorem C107_init {me : MonEnv} (hm : ∀ k, me.monOk k = true) (mem : Nat → List Byte) (baud : Nat) :
    (Mon.init me (Mon.boot mem) baud).2 = (Slave.init me.toEnv (Slave.boot mem) baud).2 ∧
    SameSlave (Mon.init me (Mon.boot mem) baud).1 (Slave.init me.toEnv (Slave.boot mem) baud).1 := by
  obtain ⟨a, b⟩ := init_twin hm (Mon.boot mem) baud
  refine ⟨b, sameSlave_of_twin ?_⟩
  rw [a]
  exact .refl _

/-- a period with frames on both controllers, a change of the rate, a number change, a request -/
def exTwin : List MIn := exMAdds ++ [.setBaud 500, .setMode .operational, rqA 1, rqB 2] ++ exAll ++
  [rqA 3, rqB 4, .main 5 2 8 2 [2, 3, 232, 0, 0, 0, 0, 0], .changeNr [77, 68, 66] 7 9, .write 110 [9, 9], rqB 6, rqA 7]

/-- frames sent, oldest first -/
def exSentM (l : List Ev) : List Frame := l.reverse.filterMap fun e => match e with
  | .frame f true => some f
  | _ => none

/-- The hypotheses are met by that history: both modules transmit twice, then once with the new number and
the new data. -/
example : (∀ k, exMe.monOk k = true) ∧ (∀ k, exMe.modeOk k = true) := ⟨fun _ => rfl, fun _ => rfl⟩

/-- not a registration -/
def noAdd : MIn → Bool
  | .add .. => false
  | _ => true

theorem complete_tail {me : MonEnv} {xs : List MIn} (h : xs.all noAdd = true) : ∀ d, Complete me d xs := by
  induction xs with
  | nil => intro d; trivial
  | cons x xs ih =>
    intro d
    simp only [List.all_cons, Bool.and_eq_true] at h
    refine ⟨?_, fun d' _ => ih h.2 d'⟩
    cases x with
    | add tpl mt nr rx tx => exact absurd h.1 (by simp [noAdd])
    | _ => trivial

example : Complete exMe (Mon.init exMe (Mon.boot exMem) 250).1 exTwin := by
  refine ⟨by decide +kernel, fun d1 h1 => ?_⟩
  obtain rfl := Option.some.inj h1
  exact ⟨by decide +kernel, fun d2 _ => complete_tail (by decide +kernel) d2⟩

example : ((run exMe exMInit exTwin).map fun d => (d.s.link.hwRate, d.s.link.mode, (exSentM d.s.node.log).map fun f => f.id)) =
    some (1000, .operational, [0x410, 0x411, 0x420, 0x421, 0x422, 0x410, 0x411, 0x420, 0x421, 0x422, 0x410, 0x411, 0x418, 0x419, 0x41A]) := by
  decide +kernel

/-- the endless loop after a change of the number of the first module -/
example : run exMe exMInit (exMAdds ++ [.changeNr [77, 68, 65] 7 5, rqA 7]) |>.isNone := by decide +kernel

/-- Without the hypothesis on the mode changes the claim is false: with the monitor the result of
`CpCoreCanMode` for the main controller is overwritten, so a baud rate message changes the rate which is
refused without the monitor. -/
theorem C107_counterexample_refused : ∃ xs : List MIn,
    let me := { exMe with modeOk := fun _ => false }
    ((run me (Mon.init me (Mon.boot exMem) 250).1 xs).map fun d => d.s.link.hwRate) = some 1000 ∧
    ((runWithoutMon me.toEnv (Slave.init me.toEnv (Slave.boot exMem) 250).1 xs).map fun s => s.link.hwRate) = some 0 := by
  refine ⟨exMAdds ++ [.main 5 2 8 2 [2, 3, 232, 0, 0, 0, 0, 0]], ?_⟩
  decide +kernel

/-- Without complete registrations the claim is false: the monitor controller has message objects for the
first module only, and the second module does not transmit, which it does without the monitor. -/
theorem C107_counterexample_objects : ∃ xs : List MIn,
    let me := { exMe with nMon := 8 }
    ((run me (Mon.init me (Mon.boot exMem) 250).1 xs).map fun d => (exSentM d.s.node.log).map fun f => f.id) ≠
    ((runWithoutMon me.toEnv (Slave.init me.toEnv (Slave.boot exMem) 250).1 xs).map fun s => (exSentM s.node.log).map fun f => f.id) := by
  refine ⟨exMAdds ++ [rqA 1, rqB 2], ?_⟩
  decide +kernel

end Mon
end LiCan
