import Verif.Props.Mon
/-! # A slave with monitor controller: examples -/
namespace LiCan.Mon
open Node Spec Slave

/-- the configuration of `exEnv` with a monitor controller of 32 message objects -/
def exMe : MonEnv :=
  { exEnv with nMon := 32, monOk := fun _ => true, monConv := fun _ can dlc old => (can.take dlc ++ old.drop dlc, E.ok)
               tmp := [0xAA, 0xAA, 0xAA, 0xAA, 0xAA, 0xAA, 0xAA, 0xAA] }

theorem exMe_ok : MonEnvOk exMe := ⟨⟨by decide, by decide, by decide⟩, by decide, by decide⟩

def exMt : MonTpl := ⟨fun _ => .app 0, fun _ => .app 0, fun _ => .app 0, fun _ => .app 0⟩

/-- modules 5 (two objects in each direction) and 9 (one to receive, three to transmit) with callbacks -/
def exMAdds : List MIn :=
  [.add (exTpl 65 2 2) exMt 5 (fun j => 100 + j) (fun j => 110 + j),
   .add (exTpl 66 1 3) exMt 9 (fun j => 120 + j) (fun j => 130 + j),
   .allCb (some 1), .validCb [77, 68, 65] 5 (some 2), .validCb [77, 68, 66] 9 (some 3),
   .invalidCb [77, 68, 65] 5 (some 4), .invalidCb [77, 68, 66] 9 (some 5), .reqCb [77, 68, 66] 9 (some 6)]

def exMInit : Mon := (Mon.init exMe (Mon.boot exMem) 250).1

def exMStart : Option Mon := run exMe exMInit exMAdds

/-- the request on the main controller and on the monitor -/
def rqA (t : Nat) : MIn := .main t 0 0 1 []
def rqB (t : Nat) : MIn := .mon t 1 0 1 []

/-- the receive objects on both controllers -/
def rx5 : List MIn := [.main 0 1 2 0x210 [1, 2], .mon 0 3 2 0x210 [1, 2], .mon 0 5 2 0x211 [3, 4], .main 0 4 2 0x211 [3, 4]]
def rx9 : List MIn := [.main 0 7 2 0x220 [5, 6], .mon 0 9 2 0x220 [5, 6]]
/-- the transmit objects read back -/
def tx5 : List MIn := [.mon 0 0 2 0x410 [110, 111], .mon 0 2 2 0x411 [111, 112]]
def tx9 : List MIn := [.mon 0 6 2 0x420 [130, 131], .mon 0 7 2 0x421 [131, 132], .mon 0 8 2 0x422 [132, 133]]

/-- validity of the modules after a history -/
def exMValid (xs : List MIn) : Option (List Bool) :=
  (exMStart.bind fun d => run exMe d xs).map fun d => (List.range d.s.node.nrMod).map d.s.sync.valid

/-- the calls made, oldest first -/
def exMCalls (xs : List MIn) : Option (List Nat) :=
  (exMStart.bind fun d => run exMe d xs).map fun d => d.s.node.log.reverse.filterMap fun e => match e with
    | .call f => some f
    | _ => none

/-- histories of covered inputs -/
def BasicRun (me : MonEnv) : Mon → List MIn → Prop
  | _, [] => True
  | d, x :: xs => BasicM me d x ∧ ∀ d1, Mon.step me d x = some d1 → BasicRun me d1 xs

theorem MReach.run {me : MonEnv} (xs : List MIn) : ∀ {w : Bool × Bool} {d d' : Mon}, MReach me w d → BasicRun me d xs →
    Mon.run me d xs = some d' → MReach me (xs.foldl pair w) d' := by
  induction xs with
  | nil => intro w d d' h _ hr; cases hr; exact h
  | cons x xs ih =>
    intro w d d' h hb hr
    unfold Mon.run at hr
    cases hs : Mon.step me d x with
    | none => rw [hs] at hr; simp at hr
    | some d1 => rw [hs] at hr; exact ih (h.step hb.1 hs) (hb.2 d1 hs) hr

theorem exMt_ok : MonTplOk exMt := fun _ => ⟨nofun, nofun, nofun, nofun⟩

theorem exMAdds_basic : BasicRun exMe exMInit exMAdds := by
  refine ⟨⟨⟨by decide, by decide, by decide⟩, exMt_ok, by decide +kernel⟩, fun d1 h1 => ?_⟩
  obtain rfl := Option.some.inj h1
  refine ⟨⟨⟨by decide, by decide, by decide⟩, exMt_ok, by decide +kernel⟩, fun d2 _ => ?_⟩
  exact ⟨trivial, fun _ _ => ⟨trivial, fun _ _ => ⟨trivial, fun _ _ => ⟨trivial, fun _ _ => ⟨trivial, fun _ _ => ⟨trivial, fun _ _ => trivial⟩⟩⟩⟩⟩⟩

/-- after a first request on both controllers -/
def exReady : Option Mon := exMStart.bind fun d => run exMe d [rqA 1, rqB 2]

theorem exReady_reach : ∃ d, exReady = some d ∧ MReach exMe (true, true) d := by
  have e0 : MReach exMe (false, false) exMInit := .init exMem 250 (by decide +kernel)
  have s1 : (exMStart).isSome = true := by decide +kernel
  have s2 : (exReady).isSome = true := by decide +kernel
  obtain ⟨d1, h1⟩ := Option.isSome_iff_exists.1 s1
  obtain ⟨d2, h2⟩ := Option.isSome_iff_exists.1 s2
  refine ⟨d2, h2, ?_⟩
  have r1 := e0.run _ exMAdds_basic h1
  unfold exReady at h2
  rw [h1] at h2
  have r2 := r1.run [rqA 1, rqB 2] ⟨fun h => by omega, fun _ _ => ⟨trivial, fun _ _ => trivial⟩⟩ h2
  exact r2

/-- the two requests of a period, the frames between and after them, and the next request -/
structure Trial where
  a  : MIn
  xs : List MIn
  b  : MIn
  ys : List MIn
  e  : MIn

/-- the states of a trial -/
def Trial.states (t : Trial) : Option (Mon × Mon × Mon × Mon × Mon × Mon) :=
  exReady.bind fun d0 => (step exMe d0 t.a).bind fun dA => (run exMe dA t.xs).bind fun dB =>
  (step exMe dB t.b).bind fun dC => (run exMe dC t.ys).bind fun dD => (step exMe dD t.e).map fun d' => (d0, dA, dB, dC, dD, d')

/-- decides `DeliveredM` -/
def deliveredB (me : MonEnv) (d : Mon) : MIn → Bool
  | .main _ obj _ id _ => obj < me.nObj && id < 0x800 &&
      (d.s.node.hw.defs obj).any fun x => hwAccepts (BitVec.ofNat 16 x.id) x.mask (BitVec.ofNat 16 id)
  | .mon _ obj _ id _ => obj < me.nMon && id < 0x800 &&
      (d.m.defs obj).any fun x => hwAccepts (BitVec.ofNat 16 x.id) x.mask (BitVec.ofNat 16 id)
  | _ => true

theorem delivered_of {me : MonEnv} {d : Mon} {x : MIn} (h : deliveredB me d x = true) : DeliveredM me d x := by
  cases x <;> simp only [DeliveredM, deliveredB, Bool.and_eq_true, decide_eq_true_eq] at h ⊢
  all_goals
    obtain ⟨⟨h1, h2⟩, h3⟩ := h
    exact ⟨h1, h2, by simpa [Option.any_eq_true] using h3⟩

/-- what is checked by evaluation: delivery, the module numbers -/
def Trial.okB (t : Trial) : Bool :=
  t.states.any fun s => (t.xs ++ t.ys).all (deliveredB exMe s.2.2.2.2.1) && s.2.2.2.2.1.s.node.nrMod == 2 &&
    (List.range 3).all fun i => (s.2.2.2.2.1.s.node.rows i).nr ≤ 128

/-- The hypotheses of C75 for a trial, except for the order of the requests. -/
theorem Trial.ok {t : Trial} (h : t.okB = true) : ∃ d0 dA dB dC dD d', t.states = some (d0, dA, dB, dC, dD, d') ∧
    MReach exMe (true, true) d0 ∧ step exMe d0 t.a = some dA ∧ run exMe dA t.xs = some dB ∧ step exMe dB t.b = some dC ∧
    run exMe dC t.ys = some dD ∧ step exMe dD t.e = some d' ∧ (∀ x ∈ t.xs ++ t.ys, DeliveredM exMe dD x) ∧
    (MReach exMe (true, true) dD → ∀ i, (dD.s.node.rows i).typ ≠ [] → (dD.s.node.rows i).nr ≤ 128) := by
  obtain ⟨d0, hd0, hr⟩ := exReady_reach
  unfold okB at h
  cases hs : t.states with
  | none => rw [hs] at h; simp at h
  | some st =>
    rw [hs] at h
    obtain ⟨e0, eA, eB, eC, eD, e'⟩ := st
    unfold states at hs
    rw [hd0] at hs
    simp only [Option.bind_some, Option.bind_eq_some_iff, Option.map_eq_some_iff, Prod.mk.injEq] at hs
    obtain ⟨fA, h1, fB, h2, fC, h3, fD, h4, f', h5, rfl, rfl, rfl, rfl, rfl, rfl⟩ := hs
    refine ⟨_, _, _, _, _, _, rfl, hr, h1, h2, h3, h4, h5, ?_, ?_⟩
    · intro x hx
      simp only [Option.any_some, Bool.and_eq_true, List.all_eq_true] at h
      exact delivered_of (h.1.1 x hx)
    · intro hD i hi
      simp only [Option.any_some, Bool.and_eq_true, List.all_eq_true, beq_iff_eq, List.mem_range, decide_eq_true_eq] at h
      refine h.2 i ?_
      have := (hD.inv exMe_ok).table
      obtain ⟨tt, g, -⟩ := this
      have := (g.sim.registered i).1 hi
      have hm : exMe.maxMod = 3 := rfl
      have := g.sim.len
      omega

/-- all frames of a period on both controllers -/
def exAll : List MIn := tx5 ++ rx5 ++ tx9 ++ rx9

/-- validity of both modules after a trial -/
def Trial.valid (t : Trial) : Option (List Bool) :=
  t.states.map fun s => (List.range 2).map s.2.2.2.2.2.s.sync.valid

/-- the calls made by the last request of a trial, oldest first -/
def Trial.calls (t : Trial) : Option (List Nat) :=
  t.states.map fun s =>
    (((s.2.2.2.2.2.s.node.log.take (s.2.2.2.2.2.s.node.log.length - s.2.2.2.2.1.s.node.log.length)).reverse).filterMap fun e =>
      match e with
      | .call f => some f
      | _ => none)

instance (me : MonEnv) (x : MIn) : Decidable (QuietM me x) := by
  cases x <;> simp only [QuietM, tableCmd] <;> infer_instance

/-- the request on the main controller first -/
def exMF (ys : List MIn) : Trial := ⟨rqA 3, [], rqB 4, ys, rqA 5⟩
/-- the request on the monitor first -/
def exBF (ys : List MIn) : Trial := ⟨rqB 3, [], rqA 4, ys, rqB 5⟩

/-- the hypotheses of `C75_main_first_partial`, both modules valid -/
example : ∃ d0 dA dB dC dD d', MReach exMe (true, true) d0 ∧ step exMe d0 (.main 3 0 0 1 []) = some dA ∧
    run exMe dA [] = some dB ∧ step exMe dB (.mon 4 1 0 1 []) = some dC ∧ run exMe dC exAll = some dD ∧
    (∀ x ∈ exAll, QuietM exMe x) ∧ step exMe dD (rqA 5) = some d' ∧ (∀ x ∈ [] ++ exAll, DeliveredM exMe dD x) ∧
    (∀ i, (dD.s.node.rows i).typ ≠ [] → (dD.s.node.rows i).nr ≤ 128) := by
  obtain ⟨d0, dA, dB, dC, dD, d', -, h1, h2, h3, h4, h5, h6, h7, h8⟩ := (exMF exAll).ok (by decide +kernel)
  have q : ∀ x ∈ exAll, QuietM exMe x := by decide +kernel
  refine ⟨d0, dA, dB, dC, dD, d', h1, h2, h3, h4, h5, q, h6, h7, h8 ?_⟩
  cases h3
  have rA : MReach exMe (true, false) dA := h1.step (by intro h; omega) h2
  have rC : MReach exMe (true, true) dC := rA.step (i := .mon 4 1 0 1 []) trivial h4
  exact (quietM_run exMe_ok _ rC q h5).2

/-- the hypotheses of `C75_monitor_first_partial` -/
example : ∃ d0 dA dB dC dD d', MReach exMe (true, true) d0 ∧ step exMe d0 (.mon 3 1 0 1 []) = some dA ∧
    run exMe dA [] = some dB ∧ step exMe dB (.main 4 0 0 1 []) = some dC ∧ run exMe dC exAll = some dD ∧
    (∀ x ∈ exAll, QuietM exMe x) ∧ step exMe dD (rqB 5) = some d' ∧ (∀ x ∈ [] ++ exAll, DeliveredM exMe dD x) ∧
    (∀ i, (dD.s.node.rows i).typ ≠ [] → (dD.s.node.rows i).nr ≤ 128) := by
  obtain ⟨d0, dA, dB, dC, dD, d', -, h1, h2, h3, h4, h5, h6, h7, h8⟩ := (exBF exAll).ok (by decide +kernel)
  have q : ∀ x ∈ exAll, QuietM exMe x := by decide +kernel
  refine ⟨d0, dA, dB, dC, dD, d', h1, h2, h3, h4, h5, q, h6, h7, h8 ?_⟩
  cases h3
  have rA : MReach exMe (false, true) dA := h1.step (i := .mon 3 1 0 1 []) trivial h2
  have rC : MReach exMe (true, true) dC := rA.step (by intro h; omega) h4
  exact (quietM_run exMe_ok _ rC q h5).2

/-- both valid: the request callback of module 9, the valid callbacks, the all-valid callback -/
example : (exMF exAll).valid = some [true, true] ∧ (exMF exAll).calls = some [6, 2, 3, 1] := by decide +kernel
example : (exBF exAll).valid = some [true, true] ∧ (exBF exAll).calls = some [2, 3, 1] := by decide +kernel
/-- the slave sent something else than the application object -/
example : (exMF ([.mon 0 0 2 0x410 [110, 0], .mon 0 2 2 0x411 [111, 112]] ++ rx5 ++ tx9 ++ rx9)).valid = some [false, true] := by
  decide +kernel
/-- the monitor did not receive a frame of the master, or received it twice, or received other data -/
example : (exMF (tx5 ++ rx5 ++ tx9 ++ [.main 0 7 2 0x220 [5, 6]])).valid = some [true, false] := by decide +kernel
example : (exMF (exAll ++ [.mon 0 9 2 0x220 [5, 6]])).valid = some [true, false] := by decide +kernel
example : (exMF (tx5 ++ rx5 ++ tx9 ++ [.main 0 7 2 0x220 [5, 6], .mon 0 9 2 0x220 [5, 7]])).valid = some [true, false] := by
  decide +kernel
/-- the main controller did not receive a frame -/
example : (exMF (tx5 ++ rx5 ++ tx9 ++ [.mon 0 9 2 0x220 [5, 6]])).calls = some [6, 2, 5] := by decide +kernel

/-! ## What is excluded from C75 -/

/-- The request may not be longer than one byte: nothing is evaluated, the modules stay valid without any
data.  (First a complete period, then two without a single frame between requests of length 2.) -/
theorem C75_counterexample_long_request :
    ((exMF exAll).states.bind fun s => (run exMe s.2.2.2.2.2 [.mon 6 1 2 1 [0, 0], .main 7 0 2 1 [0, 0], .mon 8 1 2 1 [0, 0], rqA 9]).map
      fun d => (List.range 2).map d.s.sync.valid) = some [true, true] ∧
    ((exMF exAll).states.bind fun s => (run exMe s.2.2.2.2.2 [rqB 6, rqA 7, rqB 8, rqA 9]).map
      fun d => (List.range 2).map d.s.sync.valid) = some [false, false] := by decide +kernel

/-- A frame that each controller sees exactly once between its own requests makes the module invalid if the
monitor reports it only after the next request was handled by the main controller. -/
theorem C75_counterexample_late_monitor :
    (exMF (tx5 ++ rx5 ++ tx9 ++ [.main 0 7 2 0x220 [5, 6]])).valid = some [true, false] ∧
    ((exMF (tx5 ++ rx5 ++ tx9 ++ [.main 0 7 2 0x220 [5, 6]])).states.bind fun s =>
      (run exMe s.2.2.2.2.2 [.mon 0 9 2 0x220 [5, 6], rqB 6]).map fun d => (List.range 2).map d.s.sync.valid) =
      some [true, false] := by decide +kernel

/-- The end of a period is judged with the numbers of objects switched on at that time: module 5 is silent
while its frames are missing and switched on just before the next request. -/
theorem C75_counterexample_switched :
    ((exMF (tx9 ++ rx9)).states.bind fun s => (run exMe s.2.2.2.2.1
      [.silentAwakeBy [77, 68, 65] 5 0, rqA 5]).map fun d => (List.range 2).map d.s.sync.valid) = some [true, true] := by
  decide +kernel


end LiCan.Mon
