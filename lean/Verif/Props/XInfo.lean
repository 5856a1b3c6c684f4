import Verif.Model.XInfo
/-! # The transfer info returns what was stored: C101 -/
namespace LiCan
namespace Spec

/-- the five values kept in the transfer info -/
inductive InfoKey
  | mode | comp | baud | user1 | user2
  deriving DecidableEq

/-- which of them a call writes (`clean`: all but the bit rate) -/
def writes : XInfo.Op → InfoKey → Bool
  | .mode _, k => k == .mode
  | .comp _, k => k == .comp
  | .baud _, k => k == .baud
  | .user1 _, k => k == .user1
  | .user2 _, k => k == .user2
  | .clean, k => k != .baud
  | .init, _ => false

end Spec
open Spec
namespace XInfo

theorem step_consistent (crc : InfoData → Nat) (i : XInfo) (o : Op) (h : i.crc = u16 (crc i.d)) :
    (step crc i o).crc = u16 (crc (step crc i o).d) := by
  cases o <;> try rfl
  simp only [step, init, checkCrc, ← h, decide_true, if_true]

/-- a call keeps what it does not write -/
theorem step_keeps (crc : InfoData → Nat) (i : XInfo) (o : Op) (h : i.crc = u16 (crc i.d)) :
    (writes o .mode = false → (step crc i o).getMode = i.getMode) ∧
    (writes o .comp = false → (step crc i o).getComp = i.getComp) ∧
    (writes o .baud = false → (step crc i o).getBaud = i.getBaud) ∧
    (writes o .user1 = false → (step crc i o).getUser1 = i.getUser1) ∧
    (writes o .user2 = false → (step crc i o).getUser2 = i.getUser2) := by
  cases o <;> simp [writes, step, setMode, setComp, setBaud, setUser1, setUser2, clean, updateCrc, getMode, getComp, getBaud,
    getUser1, getUser2]
  · simp [init, checkCrc, ← h]

theorem run_keeps (crc : InfoData → Nat) (l : List Op) (i : XInfo) (h : i.crc = u16 (crc i.d)) :
    ((∀ o ∈ l, writes o .mode = false) → (run crc i l).getMode = i.getMode) ∧
    ((∀ o ∈ l, writes o .comp = false) → (run crc i l).getComp = i.getComp) ∧
    ((∀ o ∈ l, writes o .baud = false) → (run crc i l).getBaud = i.getBaud) ∧
    ((∀ o ∈ l, writes o .user1 = false) → (run crc i l).getUser1 = i.getUser1) ∧
    ((∀ o ∈ l, writes o .user2 = false) → (run crc i l).getUser2 = i.getUser2) := by
  induction l generalizing i with
  | nil => simp [run]
  | cons o l ih =>
    obtain ⟨a, b, c, d, e⟩ := ih (step crc i o) (step_consistent crc i o h)
    obtain ⟨a', b', c', d', e'⟩ := step_keeps crc i o h
    refine ⟨fun x => ?_, fun x => ?_, fun x => ?_, fun x => ?_, fun x => ?_⟩
    · exact (a fun p hp => x p (by simp [hp])).trans (a' (x o (by simp)))
    · exact (b fun p hp => x p (by simp [hp])).trans (b' (x o (by simp)))
    · exact (c fun p hp => x p (by simp [hp])).trans (c' (x o (by simp)))
    · exact (d fun p hp => x p (by simp [hp])).trans (d' (x o (by simp)))
    · exact (e fun p hp => x p (by simp [hp])).trans (e' (x o (by simp)))

theorem run_append (crc : InfoData → Nat) (i : XInfo) (a b : List Op) :
    run crc i (a ++ b) = run crc (run crc i a) b := by simp [run]

/-- C101: whatever the memory contained and whatever was called before, a getter returns the value stored last, across any
calls for other values and any number of resets (`li_can_slv_xload_info_init`) after it. -/
theorem C101_last_stored (crc : InfoData → Nat) (i : XInfo) (before after : List Op) :
    (∀ x, (∀ o ∈ after, writes o .mode = false) → (run crc i (before ++ .mode x :: after)).getMode = x) ∧
    (∀ x, (∀ o ∈ after, writes o .comp = false) → (run crc i (before ++ .comp x :: after)).getComp = x) ∧
    (∀ x < 65536, (∀ o ∈ after, writes o .baud = false) → (run crc i (before ++ .baud x :: after)).getBaud = x) ∧
    (∀ x, (∀ o ∈ after, writes o .user1 = false) → (run crc i (before ++ .user1 x :: after)).getUser1 = x) ∧
    (∀ x, (∀ o ∈ after, writes o .user2 = false) → (run crc i (before ++ .user2 x :: after)).getUser2 = x) := by
  refine ⟨fun x h => ?_, fun x h => ?_, fun x hx h => ?_, fun x h => ?_, fun x h => ?_⟩
  · rw [run_append]; exact (run_keeps crc after (step crc (run crc i before) (.mode x)) rfl).1 h
  · rw [run_append]; exact (run_keeps crc after (step crc (run crc i before) (.comp x)) rfl).2.1 h
  · rw [run_append]
    refine ((run_keeps crc after (step crc (run crc i before) (.baud x)) rfl).2.2.1 h).trans ?_
    show x % 65536 = x
    omega
  · rw [run_append]; exact (run_keeps crc after (step crc (run crc i before) (.user1 x)) rfl).2.2.2.1 h
  · rw [run_append]; exact (run_keeps crc after (step crc (run crc i before) (.user2 x)) rfl).2.2.2.2 h

/-- a rate stored before a second component and two resets -/
example : ∀ o ∈ [Op.comp { nr := 7 }, .init, .user1 3, .init], writes o .baud = false ∧ writes o .mode = false := by decide

/-- C101: after `li_can_slv_xload_info_clean` the mode is RUNNING and the user bytes are zero, until they are stored. -/
theorem C101_cleaned (crc : InfoData → Nat) (i : XInfo) (before after : List Op) :
    ((∀ o ∈ after, writes o .mode = false) → (run crc i (before ++ .clean :: after)).getMode = 4) ∧
    ((∀ o ∈ after, writes o .comp = false) → (run crc i (before ++ .clean :: after)).getComp =
      { nr := 125, name := List.replicate 8 0, crc := 0, dlId := 0, index := 0, typ := [] }) ∧
    ((∀ o ∈ after, writes o .user1 = false) → (run crc i (before ++ .clean :: after)).getUser1 = 0) ∧
    ((∀ o ∈ after, writes o .user2 = false) → (run crc i (before ++ .clean :: after)).getUser2 = 0) := by
  refine ⟨fun h => ?_, fun h => ?_, fun h => ?_, fun h => ?_⟩ <;> rw [run_append]
  · exact (run_keeps crc after (step crc (run crc i before) .clean) rfl).1 h
  · exact (run_keeps crc after (step crc (run crc i before) .clean) rfl).2.1 h
  · exact (run_keeps crc after (step crc (run crc i before) .clean) rfl).2.2.2.1 h
  · exact (run_keeps crc after (step crc (run crc i before) .clean) rfl).2.2.2.2 h

example : ∀ o ∈ [Op.mode 2, .init, .baud 500], writes o .user2 = false ∧ writes o .comp = false := by decide

end XInfo
end LiCan
