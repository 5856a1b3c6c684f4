import Verif.Props.ErrQueue
/-! # Reporting and retrieving errors by number: C102 and C103 -/
namespace LiCan
namespace Spec

/-- what a user of the interface by numbers does -/
inductive ApiOp
  | send (e : Err) (prio nr : Nat)
  | get

/-- an error as the user reported it: number, priority, module -/
structure Reported where
  e : Err
  prio : Nat
  nr : Nat
  deriving DecidableEq

/-- a user sees the return code and, of a successful retrieval, the error -/
abbrev ApiOut := Err × Option Reported

/-- The errors not retrieved yet; `started`: something was reported before.  FATAL errors are not kept. -/
def apiStep (l : List Reported) (started : Bool) : ApiOp → List Reported × Bool × ApiOut
  | .send e p nr => (if p = 15 then l else l ++ [⟨e, p, nr⟩], true, (0x0000#16, none))
  | .get => if started then (match l with
      | [] => ([], true, (0x5071#16, none))
      | x :: l => (l, true, (0x0000#16, some x))) else (l, false, (0x5070#16, none))

def apiRun : List Reported → Bool → List ApiOp → List ApiOut
  | _, _, [] => []
  | l, b, o :: os => (apiStep l b o).2.2 :: apiRun (apiStep l b o).1 (apiStep l b o).2.1 os

/-- at every report two more errors would fit -/
def Room (sz : Nat) : List Reported → Bool → List ApiOp → Prop
  | _, _, [] => True
  | l, b, o :: os => (∀ e p nr, o = .send e p nr → l.length + 2 < sz) ∧ Room sz (apiStep l b o).1 (apiStep l b o).2.1 os

end Spec
open Spec

namespace ErrQ

/-- a call of the interface by numbers; what an unsuccessful retrieval stores in the error number is not looked at -/
def apiStep (sz : Nat) (q : ErrQ) : ApiOp → ErrQ × ApiOut
  | .send e p nr => ((q.syserrSend4 sz e p nr p).1, ((q.syserrSend4 sz e p nr p).2, none))
  | .get => ((q.get sz).1, ((q.get sz).2.1, match (q.get sz).2.2 with
      | .entry nr e p => some ⟨e, p, nr⟩
      | .indeterminate => none))

def apiRun (sz : Nat) : ErrQ → List ApiOp → List ApiOut
  | _, [] => []
  | q, o :: os => (q.apiStep sz o).2 :: apiRun sz (q.apiStep sz o).1 os

/-- the call on the interface by message codes -/
def low : ApiOp → ErrOp
  | .send e p nr => .report (canMsgCode e) 0 p (extractGroup (canMsgCode e)) (extractSubgroup (canMsgCode e)) nr
  | .get => .get

/-- what of an entry the interface by numbers shows -/
def shown (x : ErrEntry) : Reported := ⟨errnumOf x.msgCode, x.prio, x.moduleNr⟩

theorem apiStep_low (sz : Nat) (q : ErrQ) (o : ApiOp) :
    q.apiStep sz o = ((q.step sz (low o)).1, ((q.step sz (low o)).2.1, (q.step sz (low o)).2.2.map shown)) := by
  cases o with
  | send e p nr => rfl
  | get =>
    simp only [apiStep, low, step, get]
    rcases q.getFull sz with ⟨q', e, _ | x⟩ <;> rfl

theorem apiRun_low (sz : Nat) (q : ErrQ) (os : List ApiOp) :
    apiRun sz q os = (run sz q (os.map low)).2.map fun x => (x.1, x.2.map shown) := by
  induction os generalizing q with
  | nil => rfl
  | cons o os ih =>
    simp only [apiRun, List.map_cons, run]
    rw [ih, apiStep_low]

theorem fifo_api (sz : Nat) (os : List ApiOp) (f : Fifo) (l : List Reported) (b : Bool) (hl : f.items.map shown = l)
    (hb : f.started = b) (hr : Room sz l b os) :
    (Fifo.run sz f (os.map low)).2.map (fun x => (x.1, x.2.map shown)) = Spec.apiRun l b os ∧ neverFull sz f (os.map low) := by
  induction os generalizing f l b with
  | nil => exact ⟨rfl, trivial⟩
  | cons o os ih =>
    obtain ⟨h1, h2⟩ := hr
    subst hl hb
    have key : ∀ f' out, Fifo.step sz f (low o) = (f', out) → f'.items.map shown = (Spec.apiStep (f.items.map shown) f.started o).1 →
        f'.started = (Spec.apiStep (f.items.map shown) f.started o).2.1 →
        (out.1, out.2.map shown) = (Spec.apiStep (f.items.map shown) f.started o).2.2 → ErrOp.takesLast sz f (low o) = false →
        (Fifo.run sz f ((o :: os).map low)).2.map (fun x => (x.1, x.2.map shown)) = Spec.apiRun (f.items.map shown) f.started (o :: os) ∧
          neverFull sz f ((o :: os).map low) := by
      intro f' out e a b c d
      obtain ⟨i1, i2⟩ := ih f' _ _ a b h2
      simp only [List.map_cons, Fifo.run, Spec.apiRun, neverFull]
      rw [e]
      dsimp only
      rw [i1, c]
      exact ⟨rfl, d, i2⟩
    cases o with
    | send e p nr =>
      have hlen := h1 e p nr rfl
      rw [List.length_map] at hlen
      by_cases hp : p = 15
      · refine key { f with started := true } (0x0000#16, none) (by simp [low, Fifo.step, hp]) ?_ rfl rfl (by simp [low, ErrOp.takesLast, hp])
        simp [Spec.apiStep, hp]
      · refine key { f with items := f.items ++ [entryOf (canMsgCode e) 0 p (extractGroup (canMsgCode e)) (extractSubgroup (canMsgCode e)) nr],
                            started := true } (0x0000#16, none) ?_ ?_ rfl rfl ?_
        · simp only [low, Fifo.step, hp, if_false]
          rw [if_neg (by omega), if_neg (by omega)]
        · simp [Spec.apiStep, hp, shown, entryOf, C22_error_number_round_trip]
        · simp only [low, ErrOp.takesLast]
          simp; omega
    | get =>
      by_cases hs : f.started = true
      · cases hi : f.items with
        | nil =>
          rw [← hi]
          exact key f (0x5071#16, none) (by simp [low, Fifo.step, hs, hi]) (by simp [Spec.apiStep, hs, hi]) (by simp [Spec.apiStep, hs, hi])
            (by simp [Spec.apiStep, hs, hi]) rfl
        | cons x xs =>
          rw [← hi]
          exact key { f with items := xs, popped := f.popped + 1 } (0x0000#16, some x) (by simp [low, Fifo.step, hs, hi])
            (by simp [Spec.apiStep, hs, hi]) (by simp [Spec.apiStep, hs, hi]) (by simp [Spec.apiStep, hs, hi]) rfl
      · rw [Bool.not_eq_true] at hs
        exact key f (0x5070#16, none) (by simp [low, Fifo.step, hs]) (by simp [Spec.apiStep, hs]) (by simp [Spec.apiStep, hs])
          (by simp [Spec.apiStep, hs]) rfl

end ErrQ

/-- C102: as long as at every report two more errors fit, every error reported by number (and not FATAL) is retrieved once,
in the order of the reports, with its number, its priority and its module; retrievals in between return NOT_INITIALIZED
before the first report and NO_ENTRY when nothing is left.  Missing for the full claim: FATAL errors, the check of the
redundant priority, and what an unsuccessful retrieval stores; see the counterexamples. -/
theorem C102_by_number_partial (sz : Nat) (os : List ApiOp) (hr : Room sz [] false os) :
    ErrQ.apiRun sz ErrQ.boot os = Spec.apiRun [] false os := by
  obtain ⟨h1, h2⟩ := ErrQ.fifo_api sz os {} [] false rfl rfl hr
  rw [ErrQ.apiRun_low, C19_error_queue_fifo sz _ h2, h1]

def ex102 : List ApiOp := [.get, .send 0x5001#16 4 5, .send 0x6002#16 13 9, .get, .send 0x5003#16 4 5, .get, .get, .get]

example : Room 16 [] false ex102 := by simp [ex102, Room, Spec.apiStep]
example : ErrQ.apiRun 16 ErrQ.boot ex102 = [(0x5070#16, none), (0, none), (0, none), (0, some ⟨0x5001#16, 4, 5⟩), (0, none),
    (0, some ⟨0x6002#16, 13, 9⟩), (0, some ⟨0x5003#16, 4, 5⟩), (0x5071#16, none)] := by decide +kernel

/-- C102, counterexample 1: a FATAL error is accepted (OK) in every state and lost: nothing was stored. -/
theorem C102_counterexample_fatal (q : ErrQ) (sz : Nat) (e : Err) (nr : Nat) :
    (q.syserrSend4 sz e 15 nr 15).2 = E.ok ∧ (q.syserrSend4 sz e 15 nr 15).1.getCount = q.getCount ∧
    (ErrQ.boot.syserrSend4 sz e 15 nr 15).1.getCount = 0 := by
  refine ⟨rfl, ?_, ?_⟩
  · simp only [ErrQ.syserrSend4, ErrQ.syserrSend, ErrQ.sendFull]
    cases h : q.ready <;> simp [ErrQ.getCount, h, ErrQ.init]
  · simp [ErrQ.syserrSend4, ErrQ.syserrSend, ErrQ.sendFull, ErrQ.getCount, ErrQ.boot, ErrQ.init]

/-- C102, counterexample 2: the redundant priority has no influence, where the documentation promises that a FATAL error
is issued if it differs from the priority. -/
theorem C102_counterexample_redundant (q : ErrQ) (sz : Nat) (e : Err) (prio nr red : Nat) :
    q.syserrSend4 sz e prio nr red = q.syserrSend4 sz e prio nr prio := rfl

/-- C102, counterexample 3: every retrieval that finds no entry stores an indeterminate value in the caller's error number
(and nothing in the module number and the priority). -/
theorem C102_counterexample_empty (q : ErrQ) (sz : Nat) (h : q.getCount = 0) :
    (q.get sz).1 = q ∧ (q.get sz).2.1 ≠ E.ok ∧ (q.get sz).2.2 = .indeterminate := by
  unfold ErrQ.getCount at h
  cases hr : q.ready
  · simp [ErrQ.get, ErrQ.getFull, hr]
  · rw [hr, if_pos rfl] at h
    simp [ErrQ.get, ErrQ.getFull, hr, h]

example : ErrQ.boot.getCount = 0 ∧ ((ErrQ.boot.syserrSend 16 0x5001#16 4 5).1.get 16).1.getCount = 0 ∧
    ((ErrQ.boot.syserrSend 16 0x5001#16 4 5).1.get 16).1.ready = true := by decide +kernel

/-! ## Without the queue -/
namespace Spec

/-- the error reported last that was not FATAL -/
def lastReport : List ApiOp → Option Reported
  | [] => none
  | .send e p nr :: os => (lastReport os).or (if p = 15 then none else some ⟨e, p, nr⟩)
  | .get :: os => lastReport os

/-- was an error reported since the last retrieval? -/
def fresh : Bool → List ApiOp → Bool
  | b, [] => b
  | b, .send _ p _ :: os => fresh (b || p != 15) os
  | _, .get :: os => fresh false os

end Spec

namespace ErrLast

def apiStep (q : ErrLast) : ApiOp → ErrLast
  | .send e p nr => (q.syserrSend e p nr).1
  | .get => q.get.1

def apiRun (q : ErrLast) (os : List ApiOp) : ErrLast := os.foldl apiStep q

theorem entry_run (os : List ApiOp) (q : ErrLast) : ErrQ.shown (apiRun q os).entry = (lastReport os).getD (ErrQ.shown q.entry) := by
  induction os generalizing q with
  | nil => rfl
  | cons o os ih =>
    show ErrQ.shown (apiRun (apiStep q o) os).entry = _
    rw [ih]
    cases o with
    | get => rfl
    | send e p nr =>
      simp only [lastReport]
      cases lastReport os with
      | some x => rfl
      | none =>
        by_cases hp : p = 15
        · simp [hp, apiStep, syserrSend, sendFull]
        · simp [hp, apiStep, syserrSend, sendFull, ErrQ.shown, C22_error_number_round_trip]

theorem count_run (os : List ApiOp) (q : ErrLast) (b : Bool) (h : q.count = b.toNat) : (apiRun q os).count = (fresh b os).toNat := by
  induction os generalizing q b with
  | nil => exact h
  | cons o os ih =>
    show (apiRun (apiStep q o) os).count = _
    cases o with
    | get => exact ih _ false rfl
    | send e p nr =>
      refine ih _ (b || p != 15) ?_
      by_cases hp : p = 15
      · simp [hp, apiStep, syserrSend, sendFull, h]
      · have : (p != 15) = true := by simpa using hp
        rw [this]
        simp [hp, apiStep, syserrSend, sendFull]

end ErrLast

/-- C103: without the queue, after any history of reports and retrievals the number of errors is one if something (not
FATAL) was reported since the last retrieval and zero otherwise, and a retrieval then gives number, priority and module
of the error reported last.  Missing for the full claim: a retrieval that finds nothing, see the counterexample. -/
theorem C103_last_error_partial (os : List ApiOp) (x : Reported) (hx : lastReport os = some x) :
    (ErrLast.apiRun .boot os).getCount = (if fresh false os then 1 else 0) ∧
    (ErrLast.apiRun .boot os).get.2 = (E.ok, .entry x.nr x.e x.prio) := by
  refine ⟨?_, ?_⟩
  · have := ErrLast.count_run os .boot false rfl
    unfold ErrLast.getCount
    rw [this]
    cases fresh false os <;> rfl
  · have := ErrLast.entry_run os .boot
    rw [hx] at this
    simp only [Option.getD_some, ErrQ.shown] at this
    subst this
    rfl

/-- C103: a report (not FATAL) is what the next retrieval gives, and it is counted. -/
theorem C103_report_then_get (q : ErrLast) (e : Err) (prio nr : Nat) (hp : prio ≠ 15) :
    (q.syserrSend e prio nr).2 = E.ok ∧ (q.syserrSend e prio nr).1.getCount = 1 ∧
    (q.syserrSend e prio nr).1.get.2 = (E.ok, .entry nr e prio) ∧ (q.syserrSend e prio nr).1.get.1.getCount = 0 := by
  simp [ErrLast.syserrSend, ErrLast.sendFull, hp, ErrLast.getCount, ErrLast.get, ErrLast.getFull, C22_error_number_round_trip]

example : lastReport [.send 0x5001#16 4 5, .send 0x5002#16 4 9, .send 0x5003#16 15 9, .get] = some ⟨0x5002#16, 4, 9⟩ := by decide

/-- C103, counterexample: where NO_ENTRY is documented, a retrieval without a new error answers OK and gives the old error
again (before the first report: error number 0 with module 0). -/
theorem C103_counterexample_no_entry :
    ErrLast.boot.getCount = 0 ∧ ErrLast.boot.get.2 = (E.ok, .entry 0 0 0) ∧
    (ErrLast.apiRun .boot [.send 0x5001#16 4 5, .get]).getCount = 0 ∧
    (ErrLast.apiRun .boot [.send 0x5001#16 4 5, .get]).get.2 = (E.ok, .entry 5 0x5001#16 4) := by decide +kernel

end LiCan
