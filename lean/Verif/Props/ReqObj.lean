import Verif.Lemmas.ReqStack
import Verif.Props.NodeNumber
import Verif.Props.GivenUp
import Verif.Props.Retyped
/-! # C54: when the message object for process requests is lost -/
namespace LiCan
open Spec
open Node (exTpl exEnv exInit exOps exMem exSmall)

namespace Node

theorem init_def0 (env : Env) (hhw : ∀ k, env.hwOk k = true) (h10 : 10 < env.nObj) (n : Node) :
    (init env n).1.hw.used 0 = true ∧ (init env n).1.hw.defs 0 = some ⟨0x001, 0x7FF#16, 1, .rx false⟩ := by
  unfold Node.init
  dsimp only
  generalize ({ n with
    nrMod := 0
    rows := fun i => if i < env.maxMod then { n.rows i with typ := [] } else n.rows i
    hw := { n.hw with
      used := fun i => if i < env.nObj then false else n.hw.used i
      defs := fun i => if i < env.nObj then none else n.hw.defs i } } : Node) = m
  have h1 : (define env m 0 ⟨0x001, 0x7FF#16, 1, .rx false⟩).1.hw.used 0 = true ∧
      (define env m 0 ⟨0x001, 0x7FF#16, 1, .rx false⟩).1.hw.defs 0 = some ⟨0x001, 0x7FF#16, 1, .rx false⟩ := by
    rcases define_cases env m 0 ⟨0x001, 0x7FF#16, 1, .rx false⟩ (by omega) with ⟨_, e⟩ | ⟨k, e⟩
    · rw [e]; exact ⟨by simp [upd], by simp [upd]⟩
    · rw [hhw] at k; exact nomatch k
  generalize define env m 0 ⟨0x001, 0x7FF#16, 1, .rx false⟩ = q at *
  have k : K0 q.1 (thenOk (thenOk (thenOk (thenOk q fun n => define env n 2 ⟨0x002, 0x7FF#16, 8, .rx false⟩) fun n =>
      if env.sysObj2 then define env n 3 ⟨0x002, 0x7FF#16, 8, .rx false⟩ else (n, E.ok)) fun n =>
      define env n 6 ⟨0x600, 0x7FF#16, 8, .asyncRx⟩) fun n => define env n 10 ⟨0, 0x7FF#16, 0, .tx⟩).1 := by
    refine K0.thenOk (K0.thenOk (K0.thenOk (K0.thenOk (.refl _) fun x => define_k0 _ _ _ _ fun _ => by decide) fun x => ?_)
      fun x => define_k0 _ _ _ _ fun _ => by decide) fun x => define_k0 _ _ _ _ fun _ => by decide
    split
    · exact define_k0 _ _ _ _ fun _ => by decide
    · exact .refl x
  exact ⟨k.used h1.1, (k.defs h1.1).trans h1.2⟩

end Node

/-- some number change of the history concerned a module with a receive object that had no message object -/
def MisplacedIn (env : Env) (n : Node) (ops : List Op) : Prop :=
  ∃ pre o post, ops = pre ++ o :: post ∧ Misplaces env (Node.run env n pre) o

/-- C54, exactly.  After `lcsa_init`, in whatever state that was called, and any calls: message object 0 takes process requests (identifier 1) if and
only if no number change of the history concerned a module with a receive object that had no message object.  Otherwise it
takes process data of a module. -/
theorem C54_lost_iff (env : Env) (hhw : ∀ k, env.hwOk k = true) (h10 : 10 < env.nObj) (n0 : Node) (ops : List Op) :
    ((Node.run env (Node.init env n0).1 ops).hw.defs 0 = some ⟨0x001, 0x7FF#16, 1, .rx false⟩ ↔
      ¬ MisplacedIn env (Node.init env n0).1 ops) ∧
    (MisplacedIn env (Node.init env n0).1 ops →
      ∃ d : ObjDef, (Node.run env (Node.init env n0).1 ops).hw.defs 0 = some d ∧ d.svc = .rx true) := by
  obtain ⟨hu, hd⟩ := Node.init_def0 env hhw h10 n0
  obtain ⟨_, h⟩ := Node.run_d0 env hhw (by omega) ops _ hu
  rcases h with ⟨hm, d, h1, h2⟩ | ⟨hn, h⟩
  · refine ⟨⟨fun e => ?_, fun k => absurd hm k⟩, fun _ => ⟨d, h1, h2⟩⟩
    rw [h1] at e
    rw [Option.some.inj e] at h2; exact nomatch h2
  · exact ⟨⟨fun _ => hn, fun _ => (h.defs hu).trans hd⟩, fun k => absurd k hn⟩

/-- C54, also for a driver that refuses some definitions: from any state in which message object 0 is in use, a history without
such a number change leaves it as it is. -/
theorem C54_kept (env : Env) (n : Node) (hu : n.hw.used 0 = true) (ops : List Op) (h : ¬ MisplacedIn env n ops) :
    (Node.run env n ops).hw.defs 0 = n.hw.defs 0 := by
  have aux : ∀ (ops : List Op) (n : Node), ¬ MisplacedIn env n ops → Node.D0 n (Node.run env n ops) := by
    intro ops
    induction ops with
    | nil => exact fun n _ => .refl n
    | cons o ops ih =>
      intro n h
      refine (Node.step_d0 env n o fun hm => h ⟨[], o, ops, rfl, hm⟩).trans (ih _ ?_)
      rintro ⟨pre, o', post, e, hm⟩
      exact h ⟨o :: pre, o', post, by rw [e]; rfl, hm⟩
  exact (aux ops n h).defs hu

/-- number changes of completely set up modules, by the application and by the master -/
def exRenumbers : List Op := exOps ++ [.changeNr [77, 68, 65] 6 5, .changeModuleNr 1 20, .changeNr [77, 68, 90] 1 1]

/-- a type with three receive objects announced for the module with two, the type changed, and the number changed -/
def exWider : List Op := exOps ++
  [.changeTypeAdd [77, 68, 65] { exOther 67 1 with rxObj := 3 } (fun j => 140 + j) (fun j => 150 + j) false,
   .changeType 0 [77, 68, 67], .changeModuleNr 0 6]

example : MisplacedIn exEnv (exInit exEnv) exWider :=
  ⟨exOps ++ [.changeTypeAdd [77, 68, 65] { exOther 67 1 with rxObj := 3 } (fun j => 140 + j) (fun j => 150 + j) false,
    .changeType 0 [77, 68, 67]], .changeModuleNr 0 6, [], rfl, 0, by decide +kernel, by decide +kernel, 2, by decide +kernel, by decide +kernel⟩

example : ¬ MisplacedIn exEnv (exInit exEnv) exRenumbers :=
  (C54_lost_iff exEnv (fun _ => rfl) (by decide) (Node.boot exMem) exRenumbers).1.1 (by decide +kernel)

/-- C54 is false also for completely registered modules: after the type change the third receive object has no message object.
The number change programs message object 0 for it (identifier 0x216), and no message object takes process requests any more. -/
theorem C54_counterexample_type : ((Node.run exEnv (exInit exEnv) exWider).hw.defs 0).map ObjDef.id = some 0x216 ∧
    (∀ o < 32, ((Node.run exEnv (exInit exEnv) exWider).hw.defs o).map ObjDef.id ≠ some 1) ∧
    (Node.run exEnv (exInit exEnv) exWider).ub = false := by
  refine ⟨by decide +kernel, ?_, by decide +kernel⟩
  have : (List.range 32).all (fun o => ((Node.run exEnv (exInit exEnv) exWider).hw.defs o).map ObjDef.id != some 1) = true := by decide +kernel
  intro o ho
  simpa using List.all_eq_true.1 this o (List.mem_range.2 ho)

namespace Stack

/-- C54 for the whole stack (the provable part): from power-on, `lcsa_init`, and then any inputs - frames from the bus among them,
with number and type changes by the master - message object 0 takes process requests as long as every registration goes through,
an announced type has no more receive objects than the module it is announced for, and `lcsa_init` is not called while a type is
announced.  Missing: without these rules it can be lost, see `C54_counterexample` and `C54_counterexample_type`. -/
theorem C54_whole_stack_partial (env : AEnv) (hhw : ∀ k, env.hwOk k = true) (h10 : 10 < env.nObj) (mem : Nat → List Byte) (info : XInfo)
    (b : Nat) (is : List SIn) (ha : AllSound env ((boot mem info).init env b).1 is) (s : Stack)
    (h : run env (boot mem info) (.init b :: is) = some s) :
    s.slv.node.hw.defs 0 = some ⟨0x001, 0x7FF#16, 1, .rx false⟩ := by
  unfold run at h
  obtain ⟨t, h1, h⟩ := Option.bind_eq_some_iff.1 h
  unfold step at h1
  rw [← Option.some.inj h1] at h
  exact (run_req hhw h10 is ha h (init_req env hhw h10 _ b (fun t j hj => absurd hj (Nat.not_lt_zero j)) fun t => rfl)).defs

/-- a decidable form of the rules for a run of the example device (rows 0 to 2 are the only ones that are ever touched) -/
def soundB (env : AEnv) (s : Stack) : SIn → Bool
  | .init _ => false
  | .api (.table (.add tpl nr rx tx)) => tpl.typ != [] && s.slv.node.regErr env.toEnv tpl nr rx tx == E.ok
  | .api (.table (.changeTypeAdd typ tpl _ _ _)) => typ != [] && tpl.typ != [] &&
    (s.slv.node.findType env.toEnv typ).all fun tp => decide (tpl.rxObj ≤ (s.slv.node.rows tp).rxObj)
  | _ => true

def allSoundB (env : AEnv) : Stack → List SIn → Bool
  | _, [] => true
  | s, i :: is => soundB env s i && (step env s i).all fun s' => allSoundB env s' is

theorem allSoundB_sound (env : AEnv) : ∀ (is : List SIn) (s : Stack), allSoundB env s is = true → AllSound env s is
  | [], _, _ => trivial
  | i :: is, s, h => by
    unfold allSoundB at h
    rw [Bool.and_eq_true] at h
    refine ⟨?_, fun s' e => allSoundB_sound env is s' (by have := h.2; rw [e] at this; exact this)⟩
    have h1 := h.1
    unfold soundB at h1
    unfold SoundIn
    split at h1
    · exact nomatch h1
    · rw [Bool.and_eq_true] at h1
      exact ⟨by simpa using h1.1, by simpa using h1.2⟩
    · rw [Bool.and_eq_true, Bool.and_eq_true] at h1
      refine ⟨by simpa using h1.1.1, by simpa using h1.1.2, fun tp e => ?_⟩
      have := h1.2
      rw [e] at this
      simpa using this
    · next x h2 h3 h4 =>
      split
      · exact absurd rfl (h2 _)
      · next o =>
        cases o with
        | add tpl nr rx tx => exact absurd rfl (h3 _ _ _ _)
        | changeTypeAdd typ tpl rx tx cb => exact absurd rfl (h4 _ _ _ _ _)
        | _ => trivial
      · trivial

/-- two modules registered, a smaller type announced for the first, number change by the master, type change by the master, another
number change -/
def exChanges : List SIn := (exSetup.tail ++ [.api (.table (exOffer 1)), .rx 3 2 8 0x02 false [1, 0, 0, 0, 0, 0, 0, 0], .rx 4 0 1 0x01 false [0],
  exBecome6, .api (.table (.changeType 0 [77, 68, 67])), .api (.table (.changeModuleNr 0 6))])

example : AllSound exA ((boot exMem exInfo).init exA 250).1 exChanges ∧
    ∃ s, run exA (boot exMem exInfo) (.init 250 :: exChanges) = some s := by
  refine ⟨allSoundB_sound _ _ _ (by decide +kernel), ?_⟩
  have : (run exA (boot exMem exInfo) (.init 250 :: exChanges)).isSome = true := by decide +kernel
  exact Option.isSome_iff_exists.1 this

end Stack
end LiCan
