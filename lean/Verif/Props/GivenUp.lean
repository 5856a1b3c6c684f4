import Verif.Lemmas.Current
import Verif.Props.Network
/-! # A module number that was given up is not used any more (C125) -/
namespace LiCan
open Spec

/-- Nothing in the node refers to number `a` any more: no row of the table has it, no transfer and no tunnel session belongs to it, no frame
with one of its identifiers waits, and no restart into a transfer for it is prepared. -/
structure Spec.GivenUp (env : AEnv) (a : Nat) (s : Stack) : Prop where
  table : ∀ i < env.maxMod, (s.slv.node.rows i).nr ≠ a
  transfer : s.x.comp.nr ≠ a
  session : s.tnl.state ≠ .free → s.tnl.own ≠ a
  waiting : ∀ f ∈ pendingOf s.q, ¬ FromSlave (· = a) f.id
  restart : s.info.d.mode = 3 → s.info.d.comp.nr ≠ a

namespace Stack
open Node (exMem exTpl)

theorem FromSlave.without {N : Nat → Prop} {a id : Nat} (h : FromSlave N id) (hn : ¬ FromSlave (· = a) id) : FromSlave (fun n => N n ∧ n ≠ a) id := by
  obtain ⟨n, h1, h2⟩ := h
  refine ⟨n, ⟨h1, fun e => hn ⟨n, e, h2⟩⟩, h2⟩

/-- C125.  From power-on, through any history with the numbers `N` in which `lcsa_init` is called only before the first registration, to a state
in which number `a` is given up; and from there through any further history in which nobody assigns `a` again: none of the frames handed
to the driver since then carries an identifier of `a`.  Another slave may use `a` from then on. -/
theorem C125_number_given_up_is_silent_partial (env : AEnv) (N : Nat → Prop) (a : Nat) (hn : N a) (he : AEnvO env N)
    (ha : AEnvO env (fun n => N n ∧ n ≠ a)) (mem : Nat → List Byte) (info : XInfo) (hi : info.d.mode = 3 → N info.d.comp.nr)
    (before : List SIn) (hb : UsesOnly env N (boot mem info) before) (hf : InitFirst env (boot mem info) before) (s : Stack)
    (h : run env (boot mem info) before = some s) (hg : GivenUp env a s)
    (after : List SIn) (hu : UsesOnly env (fun n => N n ∧ n ≠ a) s after) (s' : Stack) (h' : run env s after = some s') :
    ∃ new, s'.slv.node.log = new ++ s.slv.node.log ∧ ∀ f ok, Ev.frame f ok ∈ new → ¬ FromSlave (· = a) f.id := by
  have hso := (SO.boot mem he.envo.num hi).run he before hb h
  have hcur := cur_run he.envo.m8 before (cur_boot mem info) hb hf h
  have hs : SO s.slv.node.log env (fun n => N n ∧ n ≠ a) s := by
    refine hso.settle hcur ha.envo.num (fun i hi h => ⟨h, hg.table i hi⟩) ?_ (fun h => ⟨hso.own h, hg.session h⟩)
      (fun f hf => FromSlave.without (hso.q f hf) (hg.waiting f hf)) (fun h => ⟨hso.info h, hg.restart h⟩)
    exact hso.comp.imp_right fun h => ⟨h, hg.transfer⟩
  obtain ⟨new, e, k⟩ := (hs.run ha after hu h').node.2
  refine ⟨new, e, fun f ok hf => ?_⟩
  refine FromSlave.disjoint ha.envo.num ?_ (fun n h e => h.2 e) (k f ok hf)
  intro n hn'
  rw [hn']; exact he.envo.num a hn

/-! ## A concrete case -/

/-- the voter lets the modules have the numbers 5 and 6 -/
def exKeepNr (n : Nat) : Bool := n == 5 || n == 6

theorem exKeepNr_num : Numbers (fun n => exKeepNr n = true) := by
  intro n h
  simp only [exKeepNr, Bool.or_eq_true, beq_iff_eq] at h
  omega

/-- the module with number 9 answers a status request and becomes number 6 -/
def exMoved : List SIn := exSetup ++ [.rx 3 2 8 0x02 false [1, 0, 0, 0, 0, 0, 0, 0], .rx 5 2 8 0x22 false [0x20, 0, 6, 0, 0, 0, 0, 1]]

def exMovedState : Stack := (run (exNet exKeepNr 1) (boot exMem exInfo) exMoved).getD (boot exMem exInfo)

theorem exMoved_run : run (exNet exKeepNr 1) (boot exMem exInfo) exMoved = some exMovedState := by
  have : (run (exNet exKeepNr 1) (boot exMem exInfo) exMoved).isSome = true := by decide +kernel
  unfold exMovedState
  generalize run (exNet exKeepNr 1) (boot exMem exInfo) exMoved = o at *
  cases o with
  | none => cases this
  | some s => rfl

/-- a history that begins with its only `lcsa_init` -/
theorem InitFirst.once {env : AEnv} {mem : Nat → List Byte} {info : XInfo} {b : Nat} {is : List SIn} (h : ∀ i ∈ is, ∀ b, i ≠ .init b) :
    InitFirst env (boot mem info) (.init b :: is) := by
  refine ⟨fun _ _ => rfl, fun s' e => ?_⟩
  clear e
  induction is generalizing s' with
  | nil => trivial
  | cons i is ih =>
    refine ⟨fun hb => ?_, fun s'' _ => ih (fun j hj => h j (List.mem_cons_of_mem _ hj)) s''⟩
    obtain ⟨b, e⟩ := hb
    exact absurd e (h i (List.mem_cons_self ..) b)

def exAfter : List SIn := [.rx 8 0 1 0x01 false [0], .rx 20 2 8 0x02 false [1, 0, 0, 0, 0, 0, 0, 0], .enqueue 6 3 [7, 8, 9, 10],
  .act (.uloadEnd 6)]

/-- the hypotheses hold for number 9 -/
theorem exMoved_ok : AEnvO (exNet exKeepNr 1) (fun n => exNa n = true) ∧ AEnvO (exNet exKeepNr 1) (fun n => exNa n = true ∧ n ≠ 9) ∧
    UsesOnly (exNet exKeepNr 1) (fun n => exNa n = true) (boot exMem exInfo) exMoved ∧
    InitFirst (exNet exKeepNr 1) (boot exMem exInfo) exMoved ∧ GivenUp (exNet exKeepNr 1) 9 exMovedState ∧
    UsesOnly (exNet exKeepNr 1) (fun n => exNa n = true ∧ n ≠ 9) exMovedState exAfter := by
  have hM : (fun n => exNa n = true ∧ n ≠ 9) = fun n => exKeepNr n = true := by
    funext n
    refine propext ?_
    simp only [exNa, exKeepNr, Bool.or_eq_true, beq_iff_eq]
    omega
  have h0 := exNet_ok exKeepNr 1 exKeepNr_num
  refine ⟨⟨⟨h0.envo.m8, exNa_num, _, rfl, ?_⟩, ?_⟩, hM ▸ h0, usesB_uses _ _ _ _ (by decide +kernel), ?_, ?_,
    hM ▸ usesB_uses _ _ _ _ (by decide +kernel)⟩
  · intro t nr act h
    have h : (if exKeepNr nr = true then Vote.valid else Vote.forbidden) = Vote.valid ∨
      (if exKeepNr nr = true then Vote.valid else Vote.forbidden) = Vote.validButSilent := h
    cases hx : exKeepNr nr with
    | true =>
      simp only [exKeepNr, Bool.or_eq_true, beq_iff_eq] at hx
      show exNa nr = true
      rcases hx with hx | hx <;> subst hx <;> rfl
    | false => rw [hx] at h; rcases h with h | h <;> cases h
  · intro k c _ a ha
    have : a = .get := by
      simp only [exNet, exA] at ha
      split at ha
      · exact (List.mem_replicate.1 ha).2
      · cases ha
    subst this; trivial
  · refine InitFirst.once fun i hi b e => ?_
    have : ∀ i ∈ exMoved.tail, (match i with | .init _ => false | _ => true) = true := by decide +kernel
    have h := this i hi
    rw [e] at h; cases h
  · refine ⟨?_, by decide +kernel, fun h => absurd (by decide +kernel) h, ?_, fun h => absurd h (by decide +kernel)⟩
    · have : (List.range 3).all (fun i => (exMovedState.slv.node.rows i).nr != 9) = true := by decide +kernel
      intro i hi
      have := List.all_eq_true.1 this i (List.mem_range.2 hi)
      simpa using this
    · have : pendingOf exMovedState.q = [] := by decide +kernel
      rw [this]; intro f hf; cases hf

/-- number 9 (identifiers 0x23, 0x420.., 0x621, 0x623) answered before the change; afterwards process data, a status answer, data and a control
message, all with the identifiers of 5 and 6 -/
example : (exFrames exMovedState).map (·.id) = [0x13, 0x23] ∧
    ((run (exNet exKeepNr 1) exMovedState exAfter).map fun s => (exFrames s).map (·.id)) =
      some [0x13, 0x23, 0x410, 0x411, 0x414, 0x415, 0x416, 0x13, 0x17, 0x617, 0x615] := by decide +kernel

/-! ## What happens outside the hypotheses -/

/-- number 9 becomes 6 -/
def exBecome6 : SIn := .rx 5 2 8 0x22 false [0x20, 0, 6, 0, 0, 0, 0, 1]

/-- C125 fails for data that wait: the frame that the driver refused at first is sent with the old number after the change. -/
theorem C125_counterexample_waiting_data : ∃ s, run { exNet exKeepNr 1 with sendOk := fun k => k != 0 } (boot exMem exInfo)
      (exSetup ++ [.enqueue 9 2 [1, 2], exBecome6]) = some s ∧ exFrames s = [] ∧ (∀ i < 3, (s.slv.node.rows i).nr ≠ 9) ∧
    ∃ s', run { exNet exKeepNr 1 with sendOk := fun k => k != 0 } s [.enqueue 6 2 [3, 4]] = some s' ∧ exFrames s' = [⟨0x603 + 4 * (9 - 1), 2, [1, 2]⟩] := by
  have h : (run { exNet exKeepNr 1 with sendOk := fun k => k != 0 } (boot exMem exInfo)
      (exSetup ++ [.enqueue 9 2 [1, 2], exBecome6])).any (fun s => exFrames s == [] && (List.range 3).all (fun i => (s.slv.node.rows i).nr != 9) &&
      (run { exNet exKeepNr 1 with sendOk := fun k => k != 0 } s [.enqueue 6 2 [3, 4]]).any
        fun s' => exFrames s' == [⟨0x603 + 4 * (9 - 1), 2, [1, 2]⟩]) = true := by decide +kernel
  obtain ⟨s, h1, h2⟩ := (Option.any_eq_true ..).1 h
  simp only [Bool.and_eq_true, beq_iff_eq, List.all_eq_true, List.mem_range, bne_iff_ne] at h2
  obtain ⟨⟨h2, h3⟩, h4⟩ := h2
  obtain ⟨s', h4, h5⟩ := (Option.any_eq_true ..).1 h4
  exact ⟨s, h1, h2, h3, s', h4, by simpa using h5⟩

/-- C125 fails for an open tunnel session: it goes on under the old number. -/
theorem C125_counterexample_session : ∃ s, run (exNet exKeepNr 1) (boot exMem exInfo)
      (exSetup ++ [.rx 0 8 8 0x620 false [1, 3, 0, 0, 0, 0, 20, 0], exBecome6]) = some s ∧ (∀ i < 3, (s.slv.node.rows i).nr ≠ 9) ∧
    ∃ s', run (exNet exKeepNr 1) s [.putc 1, .putc 2, .putc 3, .putc 4, .putc 5, .putc 6, .putc 7, .putc 8] = some s' ∧
      exFrames s' = exFrames s ++ [⟨0x603 + 4 * (9 - 1), 8, [1, 2, 3, 4, 5, 6, 7, 8]⟩] := by
  have h : (run (exNet exKeepNr 1) (boot exMem exInfo)
      (exSetup ++ [.rx 0 8 8 0x620 false [1, 3, 0, 0, 0, 0, 20, 0], exBecome6])).any (fun s => (List.range 3).all (fun i => (s.slv.node.rows i).nr != 9) &&
      (run (exNet exKeepNr 1) s [.putc 1, .putc 2, .putc 3, .putc 4, .putc 5, .putc 6, .putc 7, .putc 8]).any
        fun s' => exFrames s' == exFrames s ++ [⟨0x603 + 4 * (9 - 1), 8, [1, 2, 3, 4, 5, 6, 7, 8]⟩]) = true := by decide +kernel
  obtain ⟨s, h1, h2⟩ := (Option.any_eq_true ..).1 h
  simp only [Bool.and_eq_true, List.all_eq_true, List.mem_range, bne_iff_ne] at h2
  obtain ⟨s', h4, h5⟩ := (Option.any_eq_true ..).1 h2.2
  exact ⟨s, h1, h2.1, s', h4, by simpa using h5⟩

/-- C125 fails for a transfer: an upload started with the old number goes on under it. -/
theorem C125_counterexample_upload : ∃ s, run (exNet exKeepNr 1) (boot exMem exInfo)
      (exSetup ++ [.rx 0 8 8 0x620 false [0x1D, 67, 79, 77, 80, 79, 78, 69], .rx 0 8 8 0x620 false [0x1E, 78, 0, 140, 0, 0, 0, 0], exBecome6]) = some s ∧
    (∀ i < 3, (s.slv.node.rows i).nr ≠ 9) ∧
    ∃ s', run (exNet exKeepNr 1) s [.ulData 10 [1, 2, 3]] = some s' ∧ ∃ d d', exFrames s' = exFrames s ++ [⟨0x601 + 4 * (9 - 1), 8, d⟩, ⟨0x601 + 4 * (9 - 1), 8, d'⟩] := by
  have h : (run (exNet exKeepNr 1) (boot exMem exInfo)
      (exSetup ++ [.rx 0 8 8 0x620 false [0x1D, 67, 79, 77, 80, 79, 78, 69], .rx 0 8 8 0x620 false [0x1E, 78, 0, 140, 0, 0, 0, 0], exBecome6])).any
      (fun s => (List.range 3).all (fun i => (s.slv.node.rows i).nr != 9) && (run (exNet exKeepNr 1) s [.ulData 10 [1, 2, 3]]).any
        fun s' => exFrames s' == exFrames s ++ [⟨0x601 + 4 * (9 - 1), 8, [0x15, 1, 2, 3, 0, 0, 0, 0]⟩, ⟨0x601 + 4 * (9 - 1), 8, [0x16, 0, 3, 0, 1, 0, 0, 0]⟩]) = true := by decide +kernel
  obtain ⟨s, h1, h2⟩ := (Option.any_eq_true ..).1 h
  simp only [Bool.and_eq_true, List.all_eq_true, List.mem_range, bne_iff_ne] at h2
  obtain ⟨s', h4, h5⟩ := (Option.any_eq_true ..).1 h2.2
  exact ⟨s, h1, h2.1, s', h4, _, _, by simpa using h5⟩

/-- C125 fails after a second `lcsa_init`: module 9 with two process data objects is registered again as number 6 with one; the second object is
still sent with the old number. -/
theorem C125_counterexample_init_again : ∃ s, run (exNet exKeepNr 1) (boot exMem exInfo)
      [.init 250, .api (.table (.add (exTpl 65 1 2) 9 (fun j => 100 + j) (fun j => 110 + j))), .init 250,
       .api (.table (.add { exTpl 65 1 2 with txObj := 1, txMainSync := fun _ => .app 0 } 6 (fun j => 100 + j) (fun j => 110 + j)))] = some s ∧ (∀ i < 3, (s.slv.node.rows i).nr ≠ 9) ∧
    ∃ s', run (exNet exKeepNr 1) s [.rx 8 0 1 0x01 false [0]] = some s' ∧ (exFrames s').map (·.id) = [0x400 + 4 * (6 - 1), 0x400 + 4 * (9 - 1) + 1] := by
  have h : (run (exNet exKeepNr 1) (boot exMem exInfo)
      [.init 250, .api (.table (.add (exTpl 65 1 2) 9 (fun j => 100 + j) (fun j => 110 + j))), .init 250,
       .api (.table (.add { exTpl 65 1 2 with txObj := 1, txMainSync := fun _ => .app 0 } 6 (fun j => 100 + j) (fun j => 110 + j)))]).any (fun s =>
      (List.range 3).all (fun i => (s.slv.node.rows i).nr != 9) && (run (exNet exKeepNr 1) s [.rx 8 0 1 0x01 false [0]]).any
        fun s' => (exFrames s').map (·.id) == [0x400 + 4 * (6 - 1), 0x400 + 4 * (9 - 1) + 1]) = true := by decide +kernel
  obtain ⟨s, h1, h2⟩ := (Option.any_eq_true ..).1 h
  simp only [Bool.and_eq_true, List.all_eq_true, List.mem_range, bne_iff_ne] at h2
  obtain ⟨s', h4, h5⟩ := (Option.any_eq_true ..).1 h2.2
  exact ⟨s, h1, h2.1, s', h4, by simpa using h5⟩

end Stack
end LiCan
