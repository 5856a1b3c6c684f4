import Verif.Spec.MonSearch
import Verif.Lemmas.MonSearch
/-! # C132: the monitor controller during the baud rate search -/
namespace LiCan
namespace Duo
open Spec
open Stack (exA exInfo exSetup)
open Node (exMem)

variable {env : AEnv}

/-- **C132.**  After every history, with any driver: both controllers have the same rate; if the node is operational the monitor controller
takes part in the bus, and if the node listens the monitor controller listens. -/
theorem C132_in_step (mem : Nat → List Byte) (info : XInfo) (is : List SIn) (d : Duo) (hr : (boot mem info).run env is = some d) :
    d.m.rate = d.s.slv.link.hwRate ∧ (d.s.slv.link.mode = .operational → d.m.drv = .start) ∧
    (d.s.slv.link.mode = .listen → d.m.drv = .listen) :=
  have h := (Agree.boot mem info).run hr
  ⟨h.rate, h.op, h.li⟩

/-- **C132.**  If the driver of the main controller does as it is told, the whole rest of the stack behaves as without a monitor controller,
so everything shown about the search carries over. -/
theorem C132_main (hd : ∀ k, env.modeOk k = true) (mem : Nat → List Byte) (info : XInfo) (is : List SIn) :
    ((boot mem info).run env is).map (·.s) = (Stack.boot mem info).run env is := run_main hd (boot mem info) is

/-- **C132.**  While a search is running, both controllers listen between two inputs, at the same rate. -/
theorem C132_listens (hd : ∀ k, env.modeOk k = true) (mem : Nat → List Byte) (info : XInfo) (is : List SIn) (d : Duo)
    (hm : ∀ i ∈ is, noMode i = true) (hr : (boot mem info).run env is = some d) (hs : Searching d.s) :
    d.s.slv.link.mode = .listen ∧ d.m.drv = .listen ∧ d.m.rate = d.s.slv.link.hwRate := by
  have e := C132_main hd mem info is
  rw [hr] at e
  have h := (Stack.C48_listens mem info is d.s hm e.symm hs).1
  obtain ⟨a, -, c⟩ := C132_in_step mem info is d hr
  exact ⟨h, c h, a⟩

theorem newCmds_of {d d' : Duo} {l : List (DrvMode × Nat)} (h : d'.m.cmds = l.reverse ++ d.m.cmds) : newCmds d d' = l := by
  unfold newCmds
  have e : d'.m.cmds.length - d.m.cmds.length = l.reverse.length := by rw [h, List.length_append]; omega
  rw [e, h, List.take_left, List.reverse_reverse]

/-- **C132**, the part that holds of "the monitor controller takes part in no bus while the search is going on": a processing during a search
gives the monitor controller no command, or exactly those of one change of the rate, where it is started once, at the rate that is being left,
and stopped again; or the search ends and it is started at the rate found. -/
theorem C132_switch_partial (d : Duo) (hs : Searching d.s) (now : Nat) (bus : Stack.BusState) (lec : Lec) :
    let d' := d.process env now bus lec
    (newCmds d d' = [] ∧ d'.m.rate = d.m.rate ∧ d'.s.rc.state ≠ .off) ∨
    (∃ b, Rate b ∧ newCmds d d' = switchCmds d.m.rate b ∧ d'.m.rate = b ∧ d'.m.drv = .listen ∧ d'.s.rc.state ≠ .off) ∨
    (d'.s.rc.state = .off ∧ d'.m.drv = .start ∧ ∃ b, d'.m.rate = (if Rate b then b else d.m.rate) ∧
      newCmds d d' = if Rate b then endCmds d.m.rate b else [(.stop, d.m.rate), (.start, d.m.rate), (.start, d.m.rate)]) := by
  have h0 : d.s.rc.state ≠ .off := fun k => Stack.not_searching k hs
  have h := round_process env d now bus lec h0
  intro d'
  have h : Round env d d' := h
  clear_value d'
  cases h with
  | same h k => exact .inl ⟨newCmds_of (by rw [h]; rfl), by rw [h], k⟩
  | next i hi h k =>
    refine .inr (.inl ⟨Stack.rcTab.getD i 0, Stack.tab_rate hi, newCmds_of ?_, by rw [h], by rw [h], k⟩)
    rw [h]; rfl
  | ended b h k =>
    refine .inr (.inr ⟨k, ?_, b, ?_, ?_⟩)
    · rw [h]; split <;> rfl
    · rw [h]
      by_cases hb : Rate b
      · rw [if_pos (Level.rate_valid hb), if_pos hb]
      · rw [if_neg (fun x => hb (Level.valid_rate x)), if_neg hb]
    · by_cases hb : Rate b
      · rw [if_pos (Level.rate_valid hb)] at h
        rw [if_pos hb]
        exact newCmds_of (by rw [h]; rfl)
      · rw [if_neg (fun x => hb (Level.valid_rate x))] at h
        rw [if_neg hb]
        exact newCmds_of (by rw [h]; rfl)

/-- a start, 700 ms without traffic, bus off: an online search -/
def exSearch : List SIn := exSetup ++ [.start 10, .process 700 .active .none, .process 800 .busOff .none]

/-- the state after a history -/
def after (env : AEnv) (is : List SIn) (p : Duo → Bool) : Bool :=
  match (boot exMem exInfo).run env is with
  | some d => p d
  | none => false

/-- the hypotheses are met: a search is running, and the commands of a start with a search that ended -/
example : (∀ k, exA.modeOk k = true) ∧ (∀ i ∈ exSearch, noMode i = true) ∧
    after exA exSearch (fun d => decide (Searching d.s ∧ d.m.drv = .listen ∧ d.m.rate = 1000 ∧ d.s.slv.link.hwRate = 1000)) = true := by
  refine ⟨fun k => rfl, by decide, by decide +kernel⟩

/-- **C132** as wished is false: a processing in the middle of a search, with drivers that do as they are told, starts the monitor controller
at a rate at which errors have just been seen. -/
theorem C132_counterexample : ∃ d d', (∀ k, exA.modeOk k = true) ∧ (∀ i ∈ exSearch, noMode i = true) ∧
    (boot exMem exInfo).run exA exSearch = some d ∧ Searching d.s ∧ d.step exA (.process 900 .active .form) = some d' ∧ Searching d'.s ∧
    (DrvMode.start, 1000) ∈ newCmds d d' ∧ d'.m.rate = 500 := by
  have h : after exA exSearch (fun d => decide (Searching d.s ∧ Searching (d.process exA 900 .active .form).s ∧
      (DrvMode.start, 1000) ∈ newCmds d (d.process exA 900 .active .form) ∧ (d.process exA 900 .active .form).m.rate = 500)) = true := by
    decide +kernel
  unfold after at h
  cases hr : (boot exMem exInfo).run exA exSearch with
  | none => rw [hr] at h; cases h
  | some d =>
    rw [hr] at h
    obtain ⟨h1, h2, h3, h4⟩ := of_decide_eq_true h
    exact ⟨d, _, fun _ => rfl, by decide, rfl, h1, rfl, h2, h3, h4⟩

/-- The first `lcsa_start` starts the monitor controller before it has any rate. -/
theorem C132_counterexample_unset : ∃ d d', (boot exMem exInfo).run exA exSetup = some d ∧ d.m.rate = 0 ∧
    d.step exA (.start 10) = some d' ∧ (DrvMode.start, 0) ∈ newCmds d d' := by
  have h : after exA exSetup (fun d => decide (d.m.rate = 0 ∧ (DrvMode.start, 0) ∈ newCmds d (d.start exA 10).1)) = true := by
    decide +kernel
  unfold after at h
  cases hr : (boot exMem exInfo).run exA exSetup with
  | none => rw [hr] at h; cases h
  | some d =>
    rw [hr] at h
    obtain ⟨h1, h2⟩ := of_decide_eq_true h
    exact ⟨d, _, rfl, h1, rfl, h2⟩

/-- a driver of the main controller that takes no command from the fourth on -/
def exRefuse : AEnv := { exA with modeOk := fun k => decide (k < 3) }

/-- With a monitor controller the result of the main controller is lost: the driver refuses the start at the end of the search, and yet the
state is INIT and the application is told that the search has ended; without a monitor controller it is told nothing. -/
theorem C132_counterexample_refused :
    (∃ d, (boot exMem exInfo).run exRefuse (exSetup ++ [.start 10, .process 700 .active .none]) = some d ∧
      d.s.rc.state = .off ∧ d.s.slv.link.drv ≠ .start ∧ d.m.drv = .start ∧ d.s.lcsa = .init ∧ ACall.suStop 23 250 ∈ Stack.exApp d.s) ∧
    (∃ s, (Stack.boot exMem exInfo).run exRefuse (exSetup ++ [.start 10, .process 700 .active .none]) = some s ∧
      s.rc.state = .off ∧ s.slv.link.drv ≠ .start ∧ s.lcsa ≠ .init ∧ ACall.suStop 23 250 ∉ Stack.exApp s) := by
  constructor
  · have h : after exRefuse (exSetup ++ [.start 10, .process 700 .active .none]) (fun d => decide (d.s.rc.state = .off ∧ d.s.slv.link.drv ≠ .start ∧
        d.m.drv = .start ∧ d.s.lcsa = .init ∧ ACall.suStop 23 250 ∈ Stack.exApp d.s)) = true := by decide +kernel
    unfold after at h
    cases hr : (boot exMem exInfo).run exRefuse (exSetup ++ [.start 10, .process 700 .active .none]) with
    | none => rw [hr] at h; cases h
    | some d => rw [hr] at h; exact ⟨d, rfl, of_decide_eq_true h⟩
  · have h : (match (Stack.boot exMem exInfo).run exRefuse (exSetup ++ [.start 10, .process 700 .active .none]) with
        | some s => decide (s.rc.state = .off ∧ s.slv.link.drv ≠ .start ∧ s.lcsa ≠ .init ∧ ACall.suStop 23 250 ∉ Stack.exApp s)
        | none => false) = true := by decide +kernel
    cases hr : (Stack.boot exMem exInfo).run exRefuse (exSetup ++ [.start 10, .process 700 .active .none]) with
    | none => rw [hr] at h; cases h
    | some s => rw [hr] at h; exact ⟨s, rfl, of_decide_eq_true h⟩

end Duo
end LiCan
