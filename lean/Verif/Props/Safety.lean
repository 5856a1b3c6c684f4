import Verif.Lemmas.NodeSafe
import Verif.Lemmas.SlaveHw
import Verif.Lemmas.StackExample
import Verif.Props.Sync
import Verif.Props.NodeTable
/-!
# No unset pointer of the module table is dereferenced or called

`Node.ub` records the three ways in which the module table can send the stack astray: a data pointer or a
conversion that is `NULL` is used (io_can_sync.c:535, 614, 639), a message object outside the table of the
controller is programmed (io_can_main.c:343), a row is looked up that does not exist (io_can_config.c:1789).
-/
namespace LiCan
namespace Spec

/-- each input meets `Q` in the state in which it arrives -/
def During (Q : Stack → SIn → Prop) (env : AEnv) : Stack → List SIn → Prop
  | _, [] => True
  | s, i :: is => Q s i ∧ ∀ s', s.step env i = some s' → During Q env s' is

/-- Calls of the application on the module table: templates that are registered meet `T`, templates for a
change of type meet `U`, a number is changed for a module that exists. -/
def Proper (T U : Row → Prop) (env : Env) (n : Node) : SIn → Prop
  | .api (.table (.add tpl _ rx tx)) => T { tpl with rx := rx, tx := tx }
  | .api (.table (.changeTypeAdd _ tpl rx tx _)) => U { tpl with rx := rx, tx := tx }
  | .api (.table (.changeNr typ _ act)) => ∃ tp < env.maxMod, (n.rows tp).typ = typ ∧ (n.rows tp).nr = act
  | .api (.table (.changeModuleNr tp _)) => tp < env.maxMod
  | _ => True

/-- a template with all four entries in both directions (as verify/io_app_ma_w/io_app_ma_w.c:66-110) -/
def Filled (env : Env) (r : Row) : Prop := AllSet r ∧ ∀ i, r.rxMsgObj i < env.nObj

/-- a template for a change of type with all four entries in both directions -/
def FilledType (r : Row) : Prop := AllSet r ∧ r.typ ≠ []

/-- a template with the entries of its own objects (as verify/io_app_frc2/io_app_frc2.c:65-107) -/
def Usual (r : Row) : Prop := OwnSet r ∧ r.typ ≠ [] ∧ ∀ i, r.rxMsgObj i = 0

/-- the controller delivers a frame only to a message object that accepts it -/
def Bus (env : Env) (n : Node) : SIn → Prop
  | .rx now obj dlc id _ data => Delivered env n (.frame now obj dlc id data)
  | _ => True

/-- initialisation again -/
def again : SIn → Bool
  | .init _ => true
  | _ => false

end Spec
open Spec
namespace Stack
open Node (OpOk EnvOk SafeA SafeB heldA heldB exMem exEnv exOps)

theorem proper_ok {T : Row → Prop} {env : AEnv} {n : Node} {o : Op} (h : Proper T FilledType env.toEnv n (.api (.table o))) :
    OpOk env.toEnv T n o := by
  cases o with
  | add => exact h
  | changeTypeAdd => exact h
  | changeNr => exact h
  | changeModuleNr => exact h
  | _ => trivial

theorem During.run {I : Stack → Prop} {Q : Stack → SIn → Prop} {env : AEnv}
    (hI : ∀ s s' i, I s → Q s i → s.step env i = some s' → I s') :
    ∀ (is : List SIn) {s s' : Stack}, I s → During Q env s is → Stack.run env s is = some s' → I s' := by
  intro is
  induction is with
  | nil => intro s s' h _ e; rw [← Option.some.inj e]; exact h
  | cons i is ih =>
    intro s s' h hq e
    simp only [Stack.run, Option.bind_eq_some_iff] at e
    obtain ⟨s1, e1, e2⟩ := e
    exact ih (hI s s1 i h hq.1 e1) (hq.2 s1 e1) e2

/-- C118.  Templates whose four entries in each direction are all set: whatever is initialised (any number of
times), registered, renumbered, given another type, switched on or off, received, processed, up- or downloaded and
whatever the driver and the controller refuse, in any order: no unset pointer is used, no message object outside
the table is programmed. -/
theorem C118_filled_templates_safe (env : AEnv) (he : EnvOk env.toEnv) (mem : Nat → List Byte) (info : XInfo)
    (is : List SIn) (s : Stack)
    (hq : During (fun s i => Proper (Filled env.toEnv) FilledType env.toEnv s.slv.node i) env (boot mem info) is)
    (hr : run env (boot mem info) is = some s) : s.slv.node.ub = false := by
  have key : SafeA env.toEnv s.nodeOf := by
    refine During.run (I := fun s => SafeA env.toEnv s.nodeOf) ?_ is (SafeA.boot he mem) hq hr
    intro a b i ha hi e
    refine (step_trace e).keeps (I := SafeA env.toEnv) ?_ ha
    intro x y hx hI
    refine heldA.nstep he hx hI ?_ ?_ ?_
    · intro now obj dlc id tp data _ hs
      have hm : ∃ p ∈ x.slots, p.2 = tp := by
        unfold Node.slotRow at hs
        simp only [Option.map_eq_some_iff] at hs
        obtain ⟨p, hp, e⟩ := hs
        exact ⟨p, List.mem_of_find?_eq_some hp, e⟩
      obtain ⟨p, hp, e⟩ := hm
      have := hI.slotA p hp
      rw [e] at this
      exact (this.rx _ (Nat.mod_lt _ (by decide))).2
    · intro o ho
      cases i with
      | api j =>
        obtain ⟨h1, h2, -⟩ := ho
        subst h1; subst h2
        exact proper_ok hi
      | init b => obtain ⟨b, h⟩ := ho; cases h
      | rx => obtain ⟨-, h⟩ := ho; cases h
      | _ => exact ho.elim
    · intro b _
      exact hI.init he
  exact key.ub

theorem setSlv_node (env : AEnv) (s : Stack) (v : Slave) : (s.setSlv env v).nodeOf = v.node := rfl

theorem init_start (env : AEnv) (he : EnvOk env.toEnv) (mem : Nat → List Byte) (s1 : Stack) (b : Nat)
    (hp : Plain (Node.boot mem) s1.slv.node) (hok : (s1.slv.init env.toEnv b).2 = E.ok) :
    SafeB env.toEnv (s1.setSlv env (s1.slv.init env.toEnv b).1).nodeOf := by
  obtain ⟨k1, k2, -⟩ := Slave.init_ok hok
  have k3 := SafeB.init he hp k1
  rw [setSlv_node, k2]
  exact k3

theorem init_safe (env : AEnv) (he : EnvOk env.toEnv) (mem : Nat → List Byte) (info : XInfo) (b : Nat)
    (h0 : ((boot mem info).init env b).2 = E.ok) : SafeB env.toEnv ((boot mem info).init env b).1.nodeOf := by
  unfold Stack.init at h0 ⊢
  refine init_start env he mem _ _ ?_ h0
  have h3 : ∀ s1 : Stack, Plain (Node.boot mem) s1.slv.node → ∀ p : Prop, ∀ [Decidable p],
      Plain (Node.boot mem) (if p then { s1 with lcsa := .download } else s1).slv.node := by
    intro s1 h p _
    split
    · exact h
    · exact h
  refine h3 _ ?_ _
  split
  · exact ⟨_, _, _, rfl⟩
  · exact .refl _

/-- C118.  Templates with the entries of their own objects set, as in the examples of the repository, one successful
initialisation, frames delivered to message objects that accept them: registering any number of modules (also ones
that do not fit), changing their numbers, switching them off and on, changing their type to a completely filled
template, receiving, sending and transferring in any order uses no unset pointer. -/
theorem C118_usual_templates_safe (env : AEnv) (he : EnvOk env.toEnv) (mem : Nat → List Byte) (info : XInfo) (b : Nat)
    (is : List SIn) (s : Stack) (h0 : ((boot mem info).init env b).2 = E.ok)
    (hq : During (fun s i => again i = false ∧ Bus env.toEnv s.slv.node i ∧ Proper Usual FilledType env.toEnv s.slv.node i) env
      ((boot mem info).init env b).1 is)
    (hr : run env ((boot mem info).init env b).1 is = some s) : s.slv.node.ub = false := by
  have hstart := init_safe env he mem info b h0
  have key : SafeB env.toEnv s.nodeOf := by
    refine During.run (I := fun s => SafeB env.toEnv s.nodeOf) ?_ is hstart hq hr
    intro a b i ha ⟨hi1, hi2, hi3⟩ e
    refine (step_trace e).keeps (I := SafeB env.toEnv) ?_ ha
    intro x y hx hI
    refine (heldB he).nstep he hx hI ?_ ?_ ?_
    · intro now obj dlc id tp data hp hs
      cases i with
      | rx now' obj' dlc' id' ext data' =>
        obtain ⟨h1, h2⟩ := hp
        subst h1
        cases h2
        obtain ⟨hob, hid, d, hd, hacc⟩ := hi2
        have hm : (obj, tp) ∈ a.nodeOf.slots := by
          unfold Node.slotRow at hs
          simp only [Option.map_eq_some_iff] at hs
          obtain ⟨p, hp, e⟩ := hs
          have h1 := List.mem_of_find?_eq_some hp
          have h2 := List.find?_some hp
          simp only [decide_eq_true_eq] at h2
          have hl := he.o32
          replace h2 := (Slave.bit_and_iff _ _ (show obj < 32 by omega)).1 h2
          have : obj = p.1 := by
            by_cases e : obj = p.1
            · exact e
            · by_cases hb : p.1 < 32
              · rw [Node.bit_get _ _ hb] at h2; simp [e] at h2
              · unfold Node.bit at h2
                simp only [BitVec.getLsbD_shiftLeft, Bool.and_eq_true, decide_eq_true_eq, Bool.not_eq_true', decide_eq_false_iff_not] at h2
                omega
          rw [this, ← e]; exact h1
        obtain ⟨-, -, -, -, k⟩ := hI.slot _ hm
        obtain ⟨k1, k2, k3⟩ := k d hd
        have : id % 4 = d.id % 4 := by
          unfold hwAccepts at hacc
          rw [k1] at hacc
          have e := congrArg BitVec.toNat (eq_of_beq hacc)
          simp only [BitVec.toNat_and, BitVec.toNat_ofNat] at e
          have m : ∀ v : Nat, (v &&& 2047) = v % 2048 := fun v => Nat.and_two_pow_sub_one_eq_mod v 11
          simp only [Nat.reduceMod, Nat.reducePow, m] at e
          omega
        have k4 := k3.2
        rw [← this] at k4
        exact k4
      | api j =>
        obtain ⟨-, h2, h3⟩ := hp
        subst h2; cases h3
      | init b => cases hi1
      | _ => exact hp.elim
    · intro o ho
      cases i with
      | api j =>
        obtain ⟨h1, h2, -⟩ := ho
        subst h1; subst h2
        exact proper_ok hi3
      | init b => cases hi1
      | rx => obtain ⟨-, h⟩ := ho; cases h
      | _ => exact ho.elim
    · intro b' hb
      cases i with
      | init b => cases hi1
      | rx => obtain ⟨-, h⟩ := hb; cases h
      | api j => obtain ⟨-, h2, h3⟩ := hb; subst h2; cases h3
      | _ => exact hb.elim
  exact key.ub

/-! ## Concrete histories -/

/-- a module type `MDx` with `r` receive and `t` transmit objects, all entries set -/
def exFull (x : Byte) (r t : Nat) : Row :=
  { Node.exTpl x r t with rxMainSync := fun _ => .app 0, txMainSync := fun _ => .app 0 }

/-- a module type `MDx` with one transmit object, nothing else set (as verify/io_app_frc2/io_app_frc2.c:65-107) -/
def exOneTx (x : Byte) : Row :=
  { typ := [77, 68, x], txObj := 1, txDlc := fun i => if i = 0 then 2 else 0
    txMain := fun i => if i = 0 then .app 0 else .null, txMainSync := fun i => if i = 0 then .app 0 else .null }

/-- the data pointer of its only object -/
def exPtr (i : Nat) : Nat := if i = 0 then 110 else 0

theorem exFull_all (x : Byte) {r t : Nat} (hr : r ≤ 4) (ht : t ≤ 4) (a b : Nat) :
    AllSet { exFull x r t with rx := fun j => a + j, tx := fun j => b + 1 + j } :=
  ⟨ht, hr, fun i _ => ⟨by show b + 1 + i ≠ 0; omega, by show Conv.app 0 ≠ .null; decide, by show Conv.app 0 ≠ .null; decide⟩,
   fun i _ => ⟨by show Conv.app 0 ≠ .null; decide, by show Conv.app 0 ≠ .null; decide⟩⟩

theorem exOneTx_usual (x : Byte) : Usual { exOneTx x with rx := fun _ => 0, tx := exPtr } := by
  refine ⟨⟨by show 1 ≤ 4; decide, Nat.zero_le _, fun i hi => ?_, fun i hi => absurd hi (Nat.not_lt_zero i)⟩, ?_, fun _ => rfl⟩
  · have : i = 0 := by
      have h : i < 1 := hi
      omega
    subst this
    exact ⟨by show exPtr 0 ≠ 0; decide, by show Conv.app 0 ≠ .null; decide, by show Conv.app 0 ≠ .null; decide⟩
  · show [77, 68, x] ≠ []
    simp

/-- each input of the list passes the test `q` -/
def duringB (q : Stack → SIn → Bool) (env : AEnv) : Stack → List SIn → Bool
  | _, [] => true
  | s, i :: is => q s i && match s.step env i with
    | none => true
    | some s' => duringB q env s' is

theorem During.of_bool {Q : Stack → SIn → Prop} {q : Stack → SIn → Bool} {env : AEnv} :
    ∀ (is : List SIn) (s : Stack), (∀ s, ∀ i ∈ is, q s i = true → Q s i) → duringB q env s is = true → During Q env s is := by
  intro is
  induction is with
  | nil => intro s _ _; trivial
  | cons i is ih =>
    intro s hq h
    simp only [duringB, Bool.and_eq_true] at h
    refine ⟨hq s i (by simp) h.1, fun s' e => ?_⟩
    rw [e] at h
    exact ih s' (fun s j hj => hq s j (by simp [hj])) h.2

/-- test for frames delivered and numbers changed for modules that exist -/
def exCheck (env : AEnv) (s : Stack) : SIn → Bool
  | .rx _ obj _ id _ _ => decide (obj < env.nObj ∧ id < 0x800) && match s.slv.node.hw.defs obj with
    | some d => hwAccepts (BitVec.ofNat 16 d.id) d.mask (BitVec.ofNat 16 id)
    | none => false
  | .api (.table (.changeNr typ _ act)) => (s.slv.node.findTypeNr env.toEnv typ act).isSome
  | _ => true

theorem exCheck_bus {env : AEnv} {s : Stack} {i : SIn} (h : exCheck env s i = true) : Bus env.toEnv s.slv.node i := by
  cases i with
  | rx now obj dlc id ext data =>
    simp only [exCheck, Bool.and_eq_true, decide_eq_true_eq] at h
    obtain ⟨⟨h1, h2⟩, h3⟩ := h
    split at h3
    · next d e => exact ⟨h1, h2, d, e, h3⟩
    · cases h3
  | _ => trivial

/-- initialised twice; between that a module of two objects in each direction is registered, then renumbered and given
another type by the master; process requests -/
def exLife : List SIn :=
  [.init 250, .api (.table (.add (exFull 65 2 2) 5 (fun j => 100 + j) (fun j => 109 + 1 + j))),
   .api (.table (.changeTypeAdd [77, 68, 65] (exFull 66 0 1) (fun j => 120 + j) (fun j => 129 + 1 + j) false)),
   .rx 2 0 1 1 false [0], .rx 3 1 2 0x210 false [1, 2],
   .rx 6 2 8 0x12 false [0x31, 77, 68, 66, 0, 0, 0, 0], .rx 7 4 2 0x211 false [1, 2], .rx 8 0 1 1 false [0],
   .init 250, .api (.table (.add (exFull 67 1 1) 9 (fun j => 100 + j) (fun j => 109 + 1 + j))), .rx 9 0 1 1 false [0]]

/-- one module of two objects in each direction, one as in verify/io_app_frc2; both renumbered; one switched off and on -/
def exUsual : List SIn :=
  [.api (.table (.add (exFull 65 2 2) 5 (fun j => 100 + j) (fun j => 109 + 1 + j))),
   .api (.table (.add (exOneTx 66) 9 (fun _ => 0) exPtr)),
   .rx 2 0 1 1 false [0], .rx 3 1 2 0x210 false [1, 2], .rx 4 2 8 0x12 false [0x20, 0, 20, 0, 0, 0, 0, 0],
   .api (.table (.changeNr [77, 68, 66] 11 9)), .rx 5 4 2 0x24D false [1, 2], .rx 8 0 1 1 false [0]]

/-- a module, initialised again, a module with fewer transmit objects -/
def exTwice : List SIn :=
  [.api (.table (.add (exFull 65 1 2) 5 (fun j => 100 + j) (fun j => 109 + 1 + j))),
   .init 250, .api (.table (.add (exOneTx 66) 9 (fun _ => 0) exPtr)), .rx 2 0 1 1 false [0]]

/-- the master changes the type to one with no receive objects -/
def exRetype : List SIn :=
  [.api (.table (.add (exFull 65 1 1) 5 (fun j => 100 + j) (fun j => 109 + 1 + j))),
   .api (.table (.changeTypeAdd [77, 68, 65] (exOneTx 66) (fun _ => 0) exPtr false)),
   .rx 6 2 8 0x12 false [0x31, 77, 68, 66, 0, 0, 0, 0], .rx 7 1 0 0x210 false []]

/-- C118: `exLife` meets the hypotheses of the first theorem, four frames are sent -/
example : During (fun s i => Proper (Filled exEnv) FilledType exEnv s.slv.node i) exA (boot exMem exInfo) exLife ∧
    (run exA (boot exMem exInfo) exLife).any (fun s => (exFrames s).map (·.id) == [0x410, 0x411, 0x410, 0x420]) = true := by
  refine ⟨During.of_bool (q := fun _ _ => true) _ _ ?_ (by decide +kernel), by decide +kernel⟩
  intro s i hi _
  simp only [exLife, List.mem_cons, List.not_mem_nil, or_false] at hi
  rcases hi with rfl | rfl | rfl | rfl | rfl | rfl | rfl | rfl | rfl | rfl | rfl
  · trivial
  · exact ⟨exFull_all 65 (by decide) (by decide) 100 109, fun _ => by show 0 < 32; decide⟩
  · exact ⟨exFull_all 66 (by decide) (by decide) 120 129, by show [77, 68, 66] ≠ []; decide⟩
  · trivial
  · trivial
  · trivial
  · trivial
  · trivial
  · trivial
  · exact ⟨exFull_all 67 (by decide) (by decide) 100 109, fun _ => by show 0 < 32; decide⟩
  · trivial

/-- C118: `exUsual` meets the hypotheses of the second theorem; both modules send, before and after the number changes -/
example : ((boot exMem exInfo).init exA 250).2 = E.ok ∧
    During (fun s i => again i = false ∧ Bus exEnv s.slv.node i ∧ Proper Usual FilledType exEnv s.slv.node i) exA
      ((boot exMem exInfo).init exA 250).1 exUsual ∧
    (run exA ((boot exMem exInfo).init exA 250).1 exUsual).any (fun s =>
      (exFrames s).map (·.id) == [0x410, 0x411, 0x420, 0x44C, 0x44D, 0x428]) = true := by
  refine ⟨by decide +kernel, During.of_bool (q := exCheck exA) _ _ ?_ (by decide +kernel), by decide +kernel⟩
  intro s i hi h
  have hb : Bus exEnv s.slv.node i := exCheck_bus h
  simp only [exUsual, List.mem_cons, List.not_mem_nil, or_false] at hi
  rcases hi with rfl | rfl | rfl | rfl | rfl | rfl | rfl | rfl
  · exact ⟨rfl, hb, (exFull_all 65 (by decide) (by decide) 100 109).own, by show [77, 68, 65] ≠ []; decide, fun _ => rfl⟩
  · exact ⟨rfl, hb, exOneTx_usual 66⟩
  · exact ⟨rfl, hb, trivial⟩
  · exact ⟨rfl, hb, trivial⟩
  · exact ⟨rfl, hb, trivial⟩
  · refine ⟨rfl, hb, ?_⟩
    simp only [exCheck, Option.isSome_iff_exists] at h
    obtain ⟨tp, e⟩ := h
    unfold Node.findTypeNr at e
    have h1 := List.find?_some e
    have h2 := List.mem_of_find?_eq_some e
    simp only [decide_eq_true_eq] at h1
    exact ⟨tp, List.mem_range.1 h2, h1⟩
  · exact ⟨rfl, hb, trivial⟩
  · exact ⟨rfl, hb, trivial⟩

/-- C118 fails for the templates of the repository if the stack is initialised a second time and a module with fewer
transmit objects is registered: the send register is not cleared, the next process request copies from a `NULL` pointer
and calls a `NULL` conversion. -/
theorem C118_counterexample_second_init : ∃ (is : List SIn) (s : Stack),
    During (fun s i => Bus exEnv s.slv.node i ∧ Proper Usual FilledType exEnv s.slv.node i) exA
      ((boot exMem exInfo).init exA 250).1 is ∧ (is.filter again).length = 1 ∧
    run exA ((boot exMem exInfo).init exA 250).1 is = some s ∧ s.slv.node.ub = true := by
  have h : (run exA ((boot exMem exInfo).init exA 250).1 exTwice).any (fun s => s.slv.node.ub) = true := by decide +kernel
  obtain ⟨s, h1, h2⟩ := (Option.any_eq_true ..).1 h
  refine ⟨exTwice, s, During.of_bool (q := exCheck exA) _ _ ?_ (by decide +kernel), rfl, h1, h2⟩
  intro s i hi h
  refine ⟨exCheck_bus h, ?_⟩
  simp only [exTwice, List.mem_cons, List.not_mem_nil, or_false] at hi
  rcases hi with rfl | rfl | rfl | rfl
  · exact ⟨(exFull_all 65 (by decide) (by decide) 100 109).own, by show [77, 68, 65] ≠ []; decide, fun _ => rfl⟩
  · trivial
  · exact exOneTx_usual 66
  · trivial

/-- C118 fails if the master changes the type of a module (system message 0x31) to a template with fewer receive objects
whose other entries are `NULL`: the message object of the old type is still switched on, its length is now 0 and an empty
frame with its identifier calls the `NULL` conversion. -/
theorem C118_counterexample_type_change : ∃ (is : List SIn) (s : Stack),
    During (fun s i => again i = false ∧ Bus exEnv s.slv.node i ∧ Proper Usual Usual exEnv s.slv.node i) exA
      ((boot exMem exInfo).init exA 250).1 is ∧
    run exA ((boot exMem exInfo).init exA 250).1 is = some s ∧ s.slv.node.ub = true := by
  have h : (run exA ((boot exMem exInfo).init exA 250).1 exRetype).any (fun s => s.slv.node.ub) = true := by decide +kernel
  obtain ⟨s, h1, h2⟩ := (Option.any_eq_true ..).1 h
  refine ⟨exRetype, s, During.of_bool (q := exCheck exA) _ _ ?_ (by decide +kernel), h1, h2⟩
  intro s i hi h
  have hb : Bus exEnv s.slv.node i := exCheck_bus h
  simp only [exRetype, List.mem_cons, List.not_mem_nil, or_false] at hi
  rcases hi with rfl | rfl | rfl | rfl
  · exact ⟨rfl, hb, (exFull_all 65 (by decide) (by decide) 100 109).own, by show [77, 68, 65] ≠ []; decide, fun _ => rfl⟩
  · exact ⟨rfl, hb, exOneTx_usual 66⟩
  · exact ⟨rfl, hb, trivial⟩
  · exact ⟨rfl, hb, trivial⟩

end Stack
end LiCan
