import Verif.Lemmas.MonSafe
import Verif.Props.MonExample
/-!
# C106: the monitor part never leaves its tables and never calls a missing function
-/
namespace LiCan.Mon
open Node Spec Slave

namespace Spec
/-- every module registered in the history comes with all its monitor conversions, as
io_can_config_types.h:127-159 asks for -/
def Supplied (xs : List MIn) : Prop := ∀ tpl mt nr rx tx, MIn.add tpl mt nr rx tx ∈ xs →
  ∀ j, mt.rxMon j ≠ .null ∧ mt.txMon j ≠ .null ∧ mt.rxMonSync j ≠ .null ∧ mt.txMonSync j ≠ .null
end Spec

theorem run_safe {me : MonEnv} (xs : List MIn) : ∀ {d d' : Mon}, Spec.Supplied xs → Safe me d.m → run me d xs = some d' → Safe me d'.m := by
  induction xs with
  | nil => intro d d' _ h hr; cases hr; exact h
  | cons x xs ih =>
    intro d d' ht h hr
    unfold run at hr
    obtain ⟨d1, hs, hr⟩ := Option.bind_eq_some_iff.1 hr
    refine ih (fun tpl mt nr rx tx hx => ht tpl mt nr rx tx (List.mem_cons_of_mem _ hx)) (step_safe ?_ h hs) hr
    intro tpl mt nr rx tx e
    exact ht tpl mt nr rx tx (by rw [e]; exact List.mem_cons_self ..)

/-- After the initialisation from power-up and any sequence of frames on either controller, registrations
(also failing ones, with any numbers and any driver), number changes by the application or by system message, silencing, mode
and baud rate changes and settings — provided the modules come with their conversions — the two tables of monitor objects are
within their sizes, every monitor object a row refers to exists, the rows in the tables have all their monitor conversions, and
no undefined behaviour has occurred in the monitor part. -/
theorem C106_safe (me : MonEnv) (hn : 4 < me.nMon) (mem : Nat → List Byte) (baud : Nat) (xs : List MIn) (d : Mon)
    (ht : Spec.Supplied xs) (h : run me (Mon.init me (Mon.boot mem) baud).1 xs = some d) :
    d.m.ub = false ∧ d.m.rxSlots.length ≤ 4 * me.maxMod ∧ d.m.txSlots.length ≤ 16 ∧
    (∀ i j, d.m.rxObj i j < me.nMon ∧ d.m.txObj i j < me.nMon) ∧
    (∀ s ∈ d.m.rxSlots, ∀ j, d.m.rxMonSync s.2 j ≠ .null) ∧ (∀ s ∈ d.m.txSlots, ∀ j, d.m.txMonSync s.2 j ≠ .null) := by
  have h0 : Safe me (Mon.boot mem).m :=
    ⟨rfl, Nat.zero_le _, Nat.zero_le _, fun _ _ => Nat.lt_of_le_of_lt (Nat.zero_le _) hn, fun _ _ => Nat.lt_of_le_of_lt (Nat.zero_le _) hn,
      (fun _ h => nomatch h), (fun _ h => nomatch h)⟩
  have h1 := h0.same (init_tab (me := me) (Mon.boot mem) baud (by omega) hn)
  have h2 := run_safe xs ht h1 h
  exact ⟨h2.ub, h2.rxL, h2.txL, fun i j => ⟨h2.rxO i j, h2.txO i j⟩, fun s hs j => (h2.rxC s hs j).1, fun s hs j => (h2.txC s hs j).2.1⟩

/-- The hypothesis is needed: with a template that has no monitor conversion the first frame of the module on the monitor calls
through `NULL`. -/
theorem C106_counterexample_unsupplied : ∃ d, run exMe exMInit
    [.add (exTpl 65 2 2) { exMt with rxMon := fun _ => .null } 5 (fun j => 100 + j) (fun j => 110 + j), .mon 0 3 2 0x210 [1, 2]] = some d ∧
    d.m.ub = true := by
  refine ⟨_, rfl, ?_⟩
  decide +kernel

/-- modules 5 and 9, one of them renumbered, traffic on both controllers, and further modules until registration fails -/
def exGrown : List MIn := exMAdds ++ [rqA 1, rqB 2] ++ rx5 ++ rx9 ++ tx5 ++
  [.changeNr [77, 68, 65] 17 5, .add (exTpl 67 4 4) exMt 21 (fun j => 140 + j) (fun j => 150 + j),
   .add (exTpl 68 4 4) exMt 22 (fun j => 140 + j) (fun j => 150 + j), .add (exTpl 69 4 4) exMt 23 (fun j => 140 + j) (fun j => 150 + j)]

theorem exGrown_supplied : Spec.Supplied exGrown := by
  intro tpl mt nr rx tx h
  have : mt = exMt := by
    simp only [exGrown, exMAdds, rx5, rx9, tx5, rqA, rqB, List.cons_append, List.nil_append, List.mem_cons,
      List.not_mem_nil, or_false, reduceCtorEq, false_or, MIn.add.injEq] at h
    rcases h with h | h | h | h | h <;> exact h.2.1
  subst this
  exact fun _ => ⟨nofun, nofun, nofun, nofun⟩

/-- non-vacuity: the history runs, and its end has objects in both tables -/
example : ((run exMe exMInit exGrown).map fun d => (d.m.ub, d.m.rxSlots.length, d.m.txSlots.length, exMe.maxMod)) =
    some (false, 7, 9, 3) := by decide +kernel

example : exMInit = (Mon.init exMe (Mon.boot exMem) 250).1 ∧ 4 < exMe.nMon := ⟨rfl, by decide⟩

end LiCan.Mon
