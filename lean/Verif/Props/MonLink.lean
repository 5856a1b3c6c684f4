import Verif.Lemmas.MonLink
import Verif.Props.MonExample
/-! # The monitor controller: what it watches, when nothing is judged, rates, modes, no interference (C76-C80) -/
namespace LiCan
open Node Spec Slave
namespace Spec

/-- message object `o` of the monitor accepts frame `id` and no other, and expects `len` bytes -/
def Watches (me : MonEnv) (d : Mon) (o id len : Nat) : Prop :=
  o < me.nMon ∧ ∃ x, d.m.defs o = some x ∧ x.dlc = len ∧
    ∀ y < 0x800, hwAccepts (BitVec.ofNat 16 x.id) x.mask (BitVec.ofNat 16 y) = true ↔ y = id

/-- a process request received by the main controller / by the monitor -/
def reqMain : Mon.MIn → Bool
  | .main _ obj _ _ _ => obj == 0
  | _ => false
def reqMon : Mon.MIn → Bool
  | .mon _ obj _ _ _ => obj == 1
  | _ => false

end Spec
namespace Mon

theorem eleven {a : Nat} (ha : a < 0x800) : ∀ y < 0x800,
    hwAccepts (BitVec.ofNat 16 a) (0x7FF#16) (BitVec.ofNat 16 y) = true ↔ y = a := by
  intro y hy
  constructor
  · exact accepts_full ha hy
  · intro h; rw [h]; simp [hwAccepts]

/-! ## C76 -/

/-- C76.  In every state reached by completed registrations and any frames and API calls (no number or type
change): each receive and each transmit object of each registered module has a message object of its own at
the monitor, which accepts exactly its identifier; every other message object of the monitor accepts exactly
the process request or the system message to all modules.
`_partial`: registrations that could not be completed and number changes are excluded; see the
counterexample. -/
theorem C76_monitor_covers_modules_partial (me : MonEnv) (he : MonEnvOk me) (w : Bool × Bool) (d : Mon) (h : MReach me w d) :
    (∀ i, (d.s.node.rows i).typ ≠ [] → let r := d.s.node.rows i
      (∀ j < r.rxObj, ∃ o, Watches me d o (0x200 + 4 * (r.nr - 1) + j) (r.rxDlc j)) ∧
      (∀ j < r.txObj, ∃ o, Watches me d o (0x400 + 4 * (r.nr - 1) + j) (r.txDlc j))) ∧
    (∀ o < me.nMon, ∀ x, d.m.defs o = some x → ∃ id, Watches me d o id x.dlc ∧
      (id = 0x001 ∨ id = 0x002 ∨ ∃ i, (d.s.node.rows i).typ ≠ [] ∧
        ((∃ j < (d.s.node.rows i).rxObj, id = 0x200 + 4 * ((d.s.node.rows i).nr - 1) + j) ∨
         (∃ j < (d.s.node.rows i).txObj, id = 0x400 + 4 * ((d.s.node.rows i).nr - 1) + j)))) := by
  have inv := h.inv he
  have m8 := he.env.m8
  have ids : ∀ i, (d.s.node.rows i).typ ≠ [] →
      (∀ j < (d.s.node.rows i).rxObj, syncRxId (d.s.node.rows i).nr j = 0x200 + 4 * ((d.s.node.rows i).nr - 1) + j ∧
        syncRxId (d.s.node.rows i).nr j < 0x800) ∧
      (∀ j < (d.s.node.rows i).txObj, syncTxId (d.s.node.rows i).nr j = 0x400 + 4 * ((d.s.node.rows i).nr - 1) + j ∧
        syncTxId (d.s.node.rows i).nr j < 0x800) := by
    intro i hi
    obtain ⟨q1, q2, q3⟩ := inv.table.registered he.env hi
    have t4 := txObj_le inv.table hi
    constructor
    · intro j hj
      unfold syncRxId
      rw [idOf_eq _ _ _ (by omega) (by omega)]
      omega
    · intro j hj
      unfold syncTxId
      rw [idOf_eq _ _ _ (by omega) (by omega)]
      omega
  refine ⟨?_, ?_⟩
  · intro i hi
    obtain ⟨f1, f2⟩ := inv.full i hi
    refine ⟨?_, ?_⟩
    · intro j hj
      obtain ⟨o, h1, h2⟩ := f1 j hj
      obtain ⟨e, l⟩ := (ids i hi).1 j hj
      have lt := (inv.wired.lt _ (List.mem_append_left _ h1)).1
      exact ⟨o, lt, _, h2, rfl, by rw [← e]; exact eleven l⟩
    · intro j hj
      obtain ⟨o, h1, h2⟩ := f2 j hj
      obtain ⟨e, l⟩ := (ids i hi).2 j hj
      have lt := (inv.wired.lt _ (List.mem_append_right _ h1)).1
      exact ⟨o, lt, _, h2, rfl, by rw [← e]; exact eleven l⟩
  · intro o ho x hx
    rcases inv.wired.all o ho x hx with e | e | e
    · subst e; rw [inv.wired.d1] at hx; injection hx with hx; subst hx
      exact ⟨1, ⟨ho, _, inv.wired.d1, rfl, eleven (by decide)⟩, .inl rfl⟩
    · subst e; rw [inv.wired.d4] at hx; injection hx with hx; subst hx
      exact ⟨2, ⟨ho, _, inv.wired.d4, rfl, eleven (by decide)⟩, .inr (.inl rfl)⟩
    · obtain ⟨⟨o', i⟩, hm, e⟩ := List.mem_map.1 e
      dsimp only at e; subst e
      rcases List.mem_append.1 hm with hm | hm
      · obtain ⟨hr, j, hj, e⟩ := inv.wired.rx _ hm
        dsimp only at hr hj e
        obtain ⟨e1, l⟩ := (ids i hr).1 j hj
        rw [e] at hx; injection hx with hx; subst hx
        exact ⟨_, ⟨ho, _, e, rfl, eleven l⟩, .inr (.inr ⟨i, hr, .inl ⟨j, hj, e1⟩⟩)⟩
      · obtain ⟨hr, j, hj, e⟩ := inv.wired.tx _ hm
        dsimp only at hr hj e
        obtain ⟨e1, l⟩ := (ids i hr).2 j hj
        rw [e] at hx; injection hx with hx; subst hx
        exact ⟨_, ⟨ho, _, e, rfl, eleven l⟩, .inr (.inr ⟨i, hr, .inr ⟨j, hj, e1⟩⟩)⟩

/-- the hypothesis is met by the slave with two modules -/
example : ∃ d, exReady = some d ∧ MReach exMe (true, true) d := exReady_reach
example : exReady.any (fun d => (d.s.node.rows 0).typ ≠ [] && (d.s.node.rows 1).typ ≠ [] && (d.s.node.rows 1).txObj == 3) = true := by
  decide +kernel

/-- a monitor with eight message objects: not enough for both modules -/
def exMe8 : MonEnv := { exMe with nMon := 8 }
def exInit8 : Mon := (Mon.init exMe8 (Mon.boot exMem) 250).1
def exFirst8 : Mon := (addModule exMe8 exInit8 (exTpl 65 2 2) exMt 5 (fun j => 100 + j) (fun j => 110 + j)).1

/-- The monitor has no message object left for the second module: `lcsa_add_module` returns OK, the module is
in the table, its first transmit objects are sent at the next request, no object of the monitor watches its
receive object; and as it is not counted, the application is told that all modules are valid (callback 1)
when only module 5 is. -/
theorem C76_counterexample_unwatched :
    (addModule exMe8 exFirst8 (exTpl 66 1 3) exMt 9 (fun j => 120 + j) (fun j => 130 + j)).2 = E.ok ∧
    ((addModule exMe8 exFirst8 (exTpl 66 1 3) exMt 9 (fun j => 120 + j) (fun j => 130 + j)).1.s.node.rows 1).typ = [77, 68, 66] ∧
    ((List.range 8).all fun o =>
      ((addModule exMe8 exFirst8 (exTpl 66 1 3) exMt 9 (fun j => 120 + j) (fun j => 130 + j)).1.m.defs o).all fun x => x.id != 0x220) = true ∧
    ((run exMe8 exFirst8 ([.add (exTpl 66 1 3) exMt 9 (fun j => 120 + j) (fun j => 130 + j), .allCb (some 1),
        rqA 1, rqB 2] ++ tx5 ++ rx5 ++ [rqA 3])).map fun d => d.s.node.log.filterMap fun e =>
          match e with | .call f => some f | _ => none) = some [1] := by decide +kernel

/-! ## C77 -/

theorem reqOn_true (x : MIn) : reqOn true x = reqMain x := by cases x <;> rfl
theorem reqOn_false (x : MIn) : reqOn false x = reqMon x := by cases x <;> rfl

/-- C77.  No verdict changes while the monitor receives no process request: after a period that the main
controller has begun, or before the first request, whatever happens (any frames on both controllers, any API
calls, registrations and number changes), the validity of every module stays what it was. -/
theorem C77_no_verdict_without_monitor (me : MonEnv) (he : MonEnvOk me) (b : Bool) (d d' : Mon) (h : MReach me (b, false) d)
    (xs : List MIn) (hx : ∀ x ∈ xs, reqMon x = false) (hr : run me d xs = some d') : d'.s.sync.valid = d.s.sync.valid := by
  have i : Idle false d := by simpa [Idle] using (h.inv he).mflag
  exact (run_idle xs i (fun x hm => by rw [reqOn_false]; exact hx x hm) hr).1

/-- C77, the other controller. -/
theorem C77_no_verdict_without_main (me : MonEnv) (he : MonEnvOk me) (b : Bool) (d d' : Mon) (h : MReach me (false, b) d)
    (xs : List MIn) (hx : ∀ x ∈ xs, reqMain x = false) (hr : run me d xs = some d') : d'.s.sync.valid = d.s.sync.valid := by
  have i : Idle true d := by simpa [Idle] using (h.inv he).flag
  exact (run_idle xs i (fun x hm => by rw [reqOn_true]; exact hx x hm) hr).1

/-- After a valid period the monitor is cut off and the master stops sending data: five further requests on
the main controller, no data on either controller, and both modules are still valid; with the monitor's
requests they would be invalid. -/
theorem C77_counterexample_stale :
    ((exMF exAll).states.bind fun s => (run exMe s.2.2.2.2.2 [rqA 6, rqA 7, rqA 8, rqA 9, rqA 10]).map
      fun d => (List.range 2).map d.s.sync.valid) = some [true, true] ∧
    ((exMF exAll).states.bind fun s => (run exMe s.2.2.2.2.2 [rqB 6, rqA 7, rqB 8, rqA 9, rqB 10]).map
      fun d => (List.range 2).map d.s.sync.valid) = some [false, false] := by decide +kernel

/-- hypotheses of the first theorem: a request on the main controller, then frames and calls -/
example : ∃ d d', MReach exMe (true, false) d ∧ d.s.sync.valid 0 = true ∧
    (∀ x ∈ [rqA 6, .main 0 1 2 0x210 [1, 2], rqA 7], reqMon x = false) ∧
    run exMe d [rqA 6, .main 0 1 2 0x210 [1, 2], rqA 7] = some d' := by
  obtain ⟨d0, dA, dB, dC, dD, d', hs, h1, h2, h3, h4, h5, h6, h7, h8⟩ := (exMF exAll).ok (by decide +kernel)
  have q : ∀ x ∈ exAll, QuietM exMe x := by decide +kernel
  cases h3
  have rA : MReach exMe (true, false) dA := h1.step (by intro h; omega) h2
  have rC : MReach exMe (true, true) dC := rA.step (i := .mon 4 1 0 1 []) trivial h4
  have rD := (quietM_run exMe_ok _ rC q h5).2
  have rE : MReach exMe (true, false) d' := rD.step (i := .main 5 0 0 1 []) (by intro h; omega) h6
  have k : ((exMF exAll).states.any fun s => s.2.2.2.2.2.s.sync.valid 0 &&
    (run exMe s.2.2.2.2.2 [rqA 6, .main 0 1 2 0x210 [1, 2], rqA 7]).isSome) = true := by decide +kernel
  rw [hs] at k
  simp only [Option.any_some, Bool.and_eq_true] at k
  obtain ⟨d2, h9⟩ := Option.isSome_iff_exists.1 k.2
  exact ⟨d', d2, rE, k.1, by decide, h9⟩

/-! ## C78 -/

/-- C78.  Both controllers always have the same bit rate: after initialisation and any history of frames,
registrations, mode and baud rate changes (by API or by system message). -/
theorem C78_same_rate (me : MonEnv) (mem : Nat → List Byte) (baud : Nat) (xs : List MIn) (d' : Mon)
    (h : run me (Mon.init me (Mon.boot mem) baud).1 xs = some d') : d'.m.hwRate = d'.s.link.hwRate := by
  have h0 : Rates (Mon.init me (Mon.boot mem) baud).1 := by
    unfold Mon.init
    dsimp only
    generalize hd : ({ s := _, m := _ } : Mon) = d0
    have r0 : Rates d0 := by rw [← hd]; rfl
    have s0 : ∀ {r : Mon × Err} {f : Mon → Mon × Err}, SameLink d0 r.1 → (∀ d, SameLink d (f d).1) → SameLink d0 (andThen r f).1 := by
      intro r f h hf
      unfold andThen; split
      · exact h.trans (hf _)
      · exact h
    have nn : ∀ f d, SameLink d (onNode f d).1 := fun f d => (Calm.onNode f d).same
    have mm : ∀ o x d, SameLink d (onMon (fun m => define me m o x) d).1 :=
      fun o x d => (Calm.onMon (fun m => define_calm me m o x) d).same
    refine SameLink.rates ?_ r0
    exact s0 (s0 (s0 (s0 (s0 (s0 (s0 (nn _ _) (mm _ _)) (mm _ _)) (nn _)) (nn _)) (nn _)) (nn _)) fun d => ⟨rfl, rfl, rfl⟩
  have key : ∀ (xs : List MIn) (d : Mon), Rates d → run me d xs = some d' → Rates d' := by
    intro xs
    induction xs with
    | nil => intro d r h; cases h; exact r
    | cons x xs ih =>
      intro d r h
      unfold Mon.run at h
      cases hs : Mon.step me d x with
      | none => rw [hs] at h; simp at h
      | some d1 => rw [hs] at h; exact ih d1 (step_rates hs r) h
  exact key xs _ h0 h

/-- the rate is changed by API (500) and by the system message (1000 kbit/s) -/
example : ((run exMe exMInit (exMAdds ++ [.setBaud 500])).map fun d => (d.m.hwRate, d.s.link.hwRate)) = some (500, 500) ∧
    ((run exMe exMInit (exMAdds ++ [.setBaud 500, .setMode .operational, .main 0 2 8 2 [2, 3, 232, 0, 0, 0, 0, 0]])).map
      fun d => (d.m.hwRate, d.s.link.hwRate)) = some (1000, 1000) := by decide +kernel

/-! ## C79 -/

/-- C79.  `li_can_slv_set_node_mode` puts the monitor into the mode of the main controller: started for
operational, listen-only for listen (if the driver of the main controller accepts the mode).
`_partial`: the modes init and stopped are excluded; see the counterexamples. -/
theorem C79_modes_agree_partial (me : MonEnv) (d : Mon) (md : Mode) (hm : md = .operational ∨ (me.recon ∧ md = .listen))
    (hok : me.modeOk d.s.link.modeN = true) :
    (setMode me d md).1.s.link.drv = (setMode me d md).1.m.drv ∧ (setMode me d md).1.s.link.mode = md ∧
    (setMode me d md).1.m.drv = if md = .operational then .start else .listen := by
  rcases hm with rfl | ⟨hr, rfl⟩
  · simp [setMode, Slave.setMode, drvMode, hok]
  · simp [setMode, Slave.setMode, drvMode, hok, hr]

example : exMe.modeOk exMInit.s.link.modeN = true := by decide

/-- Stopping the node leaves the monitor running (and started: it acknowledges frames). -/
theorem C79_counterexample_stopped :
    (setMode exMe exMInit .stopped).1.s.link.drv = .stop ∧ (setMode exMe exMInit .stopped).1.m.drv = .start := by decide +kernel

/-- The driver of the main controller refuses: the function still returns OK and the monitor runs. -/
theorem C79_counterexample_refused :
    let me := { exMe with modeOk := fun _ => false }
    (setMode me exMInit .operational).2 = E.ok ∧ (setMode me exMInit .operational).1.s.link.drv = .stop ∧
    (setMode me exMInit .operational).1.s.link.mode = .operational ∧ (setMode me exMInit .operational).1.m.drv = .start := by decide +kernel

/-- Setting the baud rate of a node that was not started starts the monitor in listen-only mode. -/
theorem C79_counterexample_baud :
    (setBaud exMInit 500).1.s.link.drv = .stop ∧ (setBaud exMInit 500).1.m.drv = .listen ∧ (setBaud exMInit 500).2 = E.ok := by
  decide +kernel

/-! ## C80 -/

/-- C80.  Frames received by the monitor never transmit anything and never touch the application's objects,
the module table, the message objects of the main controller, the error queue, node mode or rates: all
that happens to the main part are calls of application callbacks. -/
theorem C80_monitor_does_not_interfere (me : MonEnv) (d d' : Mon) (now obj dlc id : Nat) (data : List Byte)
    (h : step me d (.mon now obj dlc id data) = some d') :
    (∃ fs : List Nat, d'.s.node = { d.s.node with log := fs.map Ev.call ++ d.s.node.log }) ∧ d'.s.link = d.s.link ∧
    d'.m.hwRate = d.m.hwRate ∧ d'.m.drv = d.m.drv := by
  obtain rfl := Option.some.inj h
  have hl := handlerMon_link me d now obj dlc id data
  obtain ⟨l, h1, h2⟩ := handlerMon_calls me d now obj dlc id data
  refine ⟨?_, hl.link, hl.rate, hl.drv⟩
  have : ∃ fs : List Nat, l = fs.map Ev.call := by
    clear h2
    induction l with
    | nil => exact ⟨[], rfl⟩
    | cons e l ih =>
      obtain ⟨fs, hf⟩ := ih (fun x hx => h1 x (by simp [hx]))
      obtain ⟨f, he⟩ := h1 e (by simp)
      exact ⟨f :: fs, by rw [hf, he]; rfl⟩
  obtain ⟨fs, rfl⟩ := this
  exact ⟨fs, h2⟩

/-- a request on the monitor that evaluates the image -/
example : ((exBF exAll).states.any fun s => (step exMe s.2.2.2.2.1 (rqB 5)).isSome) = true := by decide +kernel

end Mon
end LiCan
