import Verif.Lemmas.Cpu2Link
import Verif.Lemmas.NodeExample
/-!
# The monitor CPU (properties C119 and C120)

* C119: the monitor CPU never gives the driver a frame to send.
* C120: the monitor CPU after a bus error: listen only until the application starts the node again.
-/
namespace LiCan
namespace Cpu2
open Node (exMem exEnv exTpl)

/-! ## C119 -/

/-- **C119** -/
theorem C119_monitor_never_transmits (env : Env) (mem : Nat → List Byte) (is : List CIn) (c : Cpu2)
    (h : run env (boot mem) is = some c) : (∀ f ok, Ev.frame f ok ∉ c.s.node.log) ∧ c.s.node.sendN = 0 := by
  have m := run_mute env is (boot mem) c h
  refine ⟨fun f ok hf => ?_, m.1⟩
  have := m.2 f ok hf
  cases this

/-- conversions of the monitor CPU of the example -/
def exTwo : Cpu2Row := { conv := fun _ => .app 0 }

/-- registration of a module with `r` receive and `t` transmit objects -/
def exAdd (x : Byte) (r t nr : Nat) : CIn := .add (exTpl x r t) exTwo nr (fun j => 100 + j) (fun j => 110 + j)

/-- two modules, start, a process request, a status request to everyone, a version request, a number change and
another process request -/
def exLife : List CIn :=
  [.api (.init 250), exAdd 65 2 2 5, exAdd 66 1 1 9, .start,
   .api (.frame 10 0 2 0x000 [0x03, 0xFF]),
   .api (.frame 20 2 8 0x002 [0x01, 0, 0, 0, 0, 0, 0, 0]),
   .api (.frame 30 2 8 0x012 [0x05, 0, 0, 0, 0, 0, 0, 0]),
   .api (.frame 40 2 8 0x022 [0x20, 0, 7, 0, 0, 0, 0, 0]),
   .api (.frame 50 0 2 0x000 [0x03, 0xFF]), .process 60 .active .none]

/-- the same history of the main CPU -/
def exLifeMain : List In :=
  [.init 250, .table (.add (exTpl 65 2 2) 5 (fun j => 100 + j) (fun j => 110 + j)),
   .table (.add (exTpl 66 1 1) 9 (fun j => 100 + j) (fun j => 110 + j)), .setMode .operational,
   .frame 10 0 2 0x000 [0x03, 0xFF], .frame 20 2 8 0x002 [0x01, 0, 0, 0, 0, 0, 0, 0],
   .frame 30 2 8 0x012 [0x05, 0, 0, 0, 0, 0, 0, 0], .frame 40 2 8 0x022 [0x20, 0, 7, 0, 0, 0, 0, 0],
   .frame 50 0 2 0x000 [0x03, 0xFF]]

/-- C119: the history is one the monitor CPU goes through, its table follows the number change, the main CPU answers
with ten frames -/
example : (run exEnv (boot exMem) exLife).map (fun c => ((c.s.node.rows 1).nr, c.s.node.sendN, c.s.node.ub)) = some (7, 0, false) ∧
    (Slave.run exEnv (Slave.boot exMem) exLifeMain).map (fun s => s.node.sendN) = some 10 := by
  decide +kernel

/-! ## C120 -/

/-- the driver reports an error in `lcsa_process` -/
def _root_.LiCan.Spec.busError : CIn → Bool
  | .process _ bus lec => bus ≠ .active || lec ≠ .none
  | _ => false

/-- the application starts the node or sets its mode -/
def _root_.LiCan.Spec.setsMode : CIn → Bool
  | .start => true
  | .api (.setMode _) => true
  | _ => false

/-- not taking part in the bus traffic -/
def _root_.LiCan.Spec.Passive (l : Link) : Prop := l.mode = .stopped ∨ l.mode = .listen

/-- a system message "change baud rate" with a rate the controller does not have -/
def _root_.LiCan.Spec.badRate : CIn → Bool
  | .api (.frame _ _ _ _ data) =>
    data.getD 0 0 == 2 && !([125, 250, 500, 1000].contains ((data.getD 1 0).toNat * 256 + (data.getD 2 0).toNat))
  | _ => false

open Spec Slave

theorem changeBaud_passive (env : Env) (l : Link) (b : Nat) (h : Passive l) : Passive (changeBaud env l b).1 := by
  have hs := setMode_mode env l .stopped
  unfold changeBaud
  extract_lets m r0 r1
  have h1 : r1.1.mode = .stopped := by
    show (if _ then _ else _ : Link × Err).1.mode = _
    split
    · rw [(setBaud_mode _ _).1]; exact hs
    · exact hs
  clear_value r1
  split
  · unfold Passive
    rw [setMode_mode]; exact h
  · exact .inl h1

theorem step_passive (env : Env) (c c' : Cpu2) (i : CIn) (h : c.step env i = some c') (hi : setsMode i = false)
    (hp : Passive c.s.link) : Passive c'.s.link := by
  rcases step_link env c c' i h with ⟨k, -⟩ | ⟨_, _, _, _, _, rfl, _, _, _, _, k⟩ | ⟨_, bus, lec, rfl, k⟩ | ⟨rfl, -⟩ | ⟨m, rfl, -⟩
  · unfold Passive; rw [k]; exact hp
  · rw [k]; exact changeBaud_passive env _ _ hp
  · rw [k]; unfold hwError; split
    · right; rw [setMode_mode]
    · exact hp
  · cases hi
  · cases hi

theorem run_passive (env : Env) : ∀ (is : List CIn) (c c' : Cpu2), run env c is = some c' → (∀ i ∈ is, setsMode i = false) →
    Passive c.s.link → Passive c'.s.link
  | [], c, c', h, _, hp => by rw [← Option.some.inj h]; exact hp
  | i :: is, c, c', h, hi, hp => by
    rcases hs : step env c i with _ | c1
    · simp [run, hs] at h
    · simp only [run, hs, Option.bind_some] at h
      exact run_passive env is c1 c' h (fun j hj => hi j (List.mem_cons.2 (.inr hj)))
        (step_passive env c c1 i hs (hi i (List.mem_cons.2 (.inl rfl))) hp)

/-- **C120** -/
theorem C120_listen_only_after_error (env : Env) (hr : env.recon = true) (c c' : Cpu2) (e : CIn) (is : List CIn)
    (he : busError e = true) (hi : ∀ i ∈ is, setsMode i = false) (h : run env c (e :: is) = some c') : Passive c'.s.link := by
  cases e with
  | process now bus lec =>
    rcases hs : step env c (.process now bus lec) with _ | c1
    · simp [run, hs] at h
    · simp only [run, hs, Option.bind_some] at h
      refine run_passive env is c1 c' h hi ?_
      have hc : c1.s.link = hwError env (Slave.trigger env c.s now).link bus lec := by
        simp only [step, Option.some.injEq] at hs
        rw [← hs]
      rw [hc]
      unfold hwError
      rw [if_pos ⟨hr, by simpa [busError] using he⟩]
      right; rw [setMode_mode]
  | _ => cases he

theorem drvMode_ok (env : Env) (hd : ∀ k, env.modeOk k = true) (l : Link) (m : DrvMode) :
    drvMode env l m = ({ l with drv := m, modeN := l.modeN + 1 }, E.ok) := by
  unfold drvMode; rw [if_pos (hd _)]

theorem setMode_ok (env : Env) (hd : ∀ k, env.modeOk k = true) (l : Link) (m : Mode) : (Slave.setMode env l m).2 = E.ok := by
  unfold Slave.setMode
  simp only [drvMode_ok env hd]
  repeat' split
  all_goals rfl

/-- the driver's state belongs to the node mode -/
def Fits (l : Link) : Prop := (l.mode = .operational ↔ l.drv = .start)

theorem setMode_fits (env : Env) (hd : ∀ k, env.modeOk k = true) (l : Link) (m : Mode) : Fits (Slave.setMode env l m).1 := by
  unfold Slave.setMode Fits
  simp only [drvMode_ok env hd]
  repeat' split
  all_goals simp_all

theorem changeBaud_fits (env : Env) (hd : ∀ k, env.modeOk k = true) (l : Link) (b : Nat) : Fits (changeBaud env l b).1 := by
  unfold changeBaud
  extract_lets m r0 r1
  split
  · exact setMode_fits env hd _ _
  · show Fits (if _ then _ else _ : Link × Err).1
    have h0 : Fits r0.1 := setMode_fits env hd _ _
    split
    · unfold Fits; rw [(setBaud_mode _ _).1, (setBaud_mode _ _).2]; exact h0
    · exact h0

theorem run_fits (env : Env) (hd : ∀ k, env.modeOk k = true) : ∀ (is : List CIn) (c c' : Cpu2), run env c is = some c' →
    Fits c.s.link → Fits c'.s.link
  | [], c, c', h, hp => by rw [← Option.some.inj h]; exact hp
  | i :: is, c, c', h, hp => by
    rcases hs : step env c i with _ | c1
    · simp [run, hs] at h
    · simp only [run, hs, Option.bind_some] at h
      refine run_fits env hd is c1 c' h ?_
      rcases step_link env c c1 i hs with ⟨k, k', -⟩ | ⟨_, _, _, _, _, rfl, _, _, _, _, k⟩ | ⟨_, bus, lec, rfl, k⟩ | ⟨rfl, k⟩ | ⟨m, rfl, k⟩
      · unfold Fits; rw [k, k']; exact hp
      · rw [k]; exact changeBaud_fits env hd _ _
      · rw [k]; unfold hwError; split
        · exact setMode_fits env hd _ _
        · exact hp
      · rw [k]; unfold start
        dsimp only
        split
        · exact setMode_fits env hd _ _
        · have h0 : Fits (Slave.setMode env c.s.link .stopped).1 := setMode_fits env hd _ _
          unfold Fits; rw [(setBaud_mode _ _).1, (setBaud_mode _ _).2]; exact h0
      · rw [k]; exact setMode_fits env hd _ _

/-- **C120**, the controller: if the driver accepts every mode, it takes part in the bus traffic exactly in
operational mode, so not after an error. -/
theorem C120_controller_not_started (env : Env) (hr : env.recon = true) (hd : ∀ k, env.modeOk k = true) (mem : Nat → List Byte)
    (before is : List CIn) (e : CIn) (c' : Cpu2) (he : busError e = true) (hi : ∀ i ∈ is, setsMode i = false)
    (h : run env (boot mem) (before ++ e :: is) = some c') : Passive c'.s.link ∧ c'.s.link.drv ≠ .start := by
  have app : ∀ (xs : List CIn) (c : Cpu2), run env c (xs ++ e :: is) = some c' → Fits c.s.link →
      ∃ c1, run env c1 (e :: is) = some c' ∧ Fits c1.s.link := by
    intro xs
    induction xs with
    | nil => intro c h k; exact ⟨c, h, k⟩
    | cons x xs ih =>
      intro c h k
      rcases hs : step env c x with _ | c1
      · simp [run, hs] at h
      · simp only [List.cons_append, run, hs, Option.bind_some] at h
        exact ih c1 h (run_fits env hd [x] c c1 (by simp [run, hs]) k)
  obtain ⟨c1, h1, k1⟩ := app before (boot mem) h (by unfold Fits; simp [boot, Slave.boot])
  have hp := C120_listen_only_after_error env hr c1 c' e is he hi h1
  refine ⟨hp, fun hx => ?_⟩
  have := (run_fits env hd _ c1 c' h1 k1).2 hx
  rcases hp with p | p <;> rw [p] at this <;> cases this

theorem setBaud_valid (l : Link) (b : Nat) (hm : l.mode = .stopped)
    (hb : b = 125 ∨ b = 250 ∨ b = 500 ∨ b = 1000) : (Slave.setBaud l b).2 = E.ok := by
  have key : ∀ (l : Link) (t : Nat), l.mode = .stopped → (t = 125 ∨ t = 250 ∨ t = 500 ∨ t = 1000) →
      hwSetBaud { l with cur := t } t = ({ l with cur := t, hwRate := t }, E.ok) := by
    intro l t hm ht
    unfold hwSetBaud
    rw [if_pos (.inr hm), if_pos ht]
  have k1 := key l b hm hb
  rcases hb with rfl | rfl | rfl | rfl <;>
    simp [Slave.setBaud, bdrTab, setBaud1, hwSetBaud, hm]

/-- **C120**, the other direction: without an error, a mode set by the application or a wrong baud rate from the master
the monitor CPU stays operational. -/
theorem C120_operational_without_error (env : Env) (hd : ∀ k, env.modeOk k = true) : ∀ (is : List CIn) (c c' : Cpu2),
    run env c is = some c' → (∀ i ∈ is, setsMode i = false ∧ busError i = false ∧ badRate i = false) →
    c.s.link.mode = .operational → c'.s.link.mode = .operational
  | [], c, c', h, _, hp => by rw [← Option.some.inj h]; exact hp
  | i :: is, c, c', h, hi, hp => by
    rcases hs : step env c i with _ | c1
    · simp [run, hs] at h
    · simp only [run, hs, Option.bind_some] at h
      have hx := hi i (List.mem_cons.2 (.inl rfl))
      refine C120_operational_without_error env hd is c1 c' h (fun j hj => hi j (List.mem_cons.2 (.inr hj))) ?_
      rcases step_link env c c1 i hs with ⟨k, -⟩ | ⟨now, obj, dlc, id, data, rfl, e1, e2, e3, e4, k⟩ | ⟨_, bus, lec, rfl, k⟩ | ⟨rfl, -⟩ | ⟨m, rfl, -⟩
      · rw [k]; exact hp
      · rw [k]
        have hb : at8 data 1 * 256 + at8 data 2 = 125 ∨ at8 data 1 * 256 + at8 data 2 = 250 ∨
            at8 data 1 * 256 + at8 data 2 = 500 ∨ at8 data 1 * 256 + at8 data 2 = 1000 := by
          have e := hx.2.2
          have e0 : (data.getD 0 0 == 2) = true := by
            have : (data.getD 0 0).toNat = 2 := e1
            have : data.getD 0 0 = 2 := UInt8.toNat_inj.1 this
            rw [this]; rfl
          simp only [badRate, e0, Bool.true_and, Bool.not_eq_false'] at e
          simpa [at8] using e
        generalize at8 data 1 * 256 + at8 data 2 = b at *
        unfold changeBaud
        have h0 := setMode_ok env hd c.s.link .stopped
        dsimp only
        rw [if_pos h0, if_pos (setBaud_valid _ _ (setMode_mode ..) hb), setMode_mode]
        exact hp
      · rw [k]
        unfold hwError
        rw [if_neg (fun h => by have := hx.2.1; simp [busError] at this; rcases h.2 with h | h <;> simp_all)]
        exact hp
      · cases hx.1
      · cases hx.1

/-- a device with reconnect -/
def exRecon : Env := { exEnv with recon := true }

/-- C120: one disturbed bit; the monitor CPU listens only, also after a change of the baud rate; the application starts
it again -/
example : exRecon.recon = true ∧ (∀ k, exRecon.modeOk k = true) ∧
    busError (.process 60 .active .stuff) = true ∧ (exLife.all fun i => !busError i && !badRate i) ∧
    (run exRecon (boot exMem) exLife).map (fun c => (c.s.link.mode, c.s.link.drv)) = some (.operational, .start) ∧
    (run exRecon (boot exMem) (exLife ++ [.process 60 .active .stuff, .process 70 .active .none,
      .api (.frame 80 2 8 0x002 [0x02, 0x01, 0xF4, 0, 0, 0, 0, 0])])).map (fun c => (c.s.link.mode, c.s.link.drv, c.s.link.cur)) =
      some (.listen, .listen, 500) ∧
    (run exRecon (boot exMem) (exLife ++ [.process 60 .active .stuff, .start])).map (fun c => (c.s.link.mode, c.s.link.drv)) =
      some (.operational, .start) := by
  refine ⟨rfl, fun _ => rfl, ?_⟩
  decide +kernel

end Cpu2
end LiCan
