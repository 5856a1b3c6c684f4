import Verif.Model.XBuf
import Verif.Spec.ByteQueue
import Verif.Lemmas.Ring
/-! # Simulation of the transfer buffer by a byte queue (proof helpers) -/
namespace LiCan
open Spec

namespace XBuf

/-- One client operation on the model. -/
def step (B : Nat) (b : XBuf) : QOp → XBuf × QOut
  | .add x => let (b, e) := b.addByte B x; (b, .code e)
  | .get => let (b, e, x) := b.getByte B; (b, .byte e x)
  | .addStr xs => let (b, e) := b.addStr B xs; (b, .code e)
  | .dropLast n => let (b, e) := b.removeBytes B n; (b, .code e)
  | .len => (b, .num b.getLen)

/-- Run a history on the model. -/
def run (B : Nat) : XBuf → List QOp → XBuf × List QOut
  | b, [] => (b, [])
  | b, op :: ops =>
    let (b', o) := b.step B op
    let (b'', os) := run B b' ops
    (b'', o :: os)

/-- The buffer holds exactly the bytes `q` (oldest first). -/
structure Holds (B : Nat) (b : XBuf) (q : List Byte) : Prop where
  read : b.read < B
  nr : b.nr = q.length
  cap : q.length ≤ B
  write : b.write = (b.read + q.length) % B
  cont : ∀ i (h : i < q.length), b.data ((b.read + i) % B) = q[i]

theorem holds_zero {B : Nat} (hB : 0 < B) : Holds B zero [] := by
  constructor <;> simp [zero, hB]

theorem holds_add {B : Nat} {b : XBuf} {q : List Byte} (h : Holds B b q) (x : Byte)
    (hlt : q.length < B) : b.addByte B x = ((b.addByte B x).1, E.ok) ∧
      Holds B (b.addByte B x).1 (q ++ [x]) := by
  obtain ⟨h1, h2, h3, h4, h5⟩ := h
  have hn : ¬ (B ≤ b.nr) := by omega
  simp only [addByte, hn, if_false]
  refine ⟨trivial, ?_⟩
  constructor
  · exact h1
  · simp [h2]
  · simp; omega
  · show (if b.write < B - 1 then b.write + 1 else 0) = (b.read + (q ++ [x]).length) % B
    simp only [List.length_append, List.length_cons, List.length_nil, Nat.zero_add]
    rw [mod_cases h1 (by omega)]
    rw [mod_cases h1 (by omega)] at h4
    grind
  · intro i hi
    show upd b.data b.write x ((b.read + i) % B) = _
    simp only [List.length_append, List.length_cons, List.length_nil] at hi
    rw [h4]
    rcases Nat.lt_or_ge i q.length with hii | hii
    · rw [upd_other, h5 i hii]
      · simp [List.getElem_append, hii]
      · intro hh
        have := mod_inj_of_lt (by omega) (by omega) hh; omega
    · have : i = q.length := by omega
      subst this
      simp

theorem holds_get {B : Nat} {b : XBuf} {x : Byte} {q : List Byte} (h : Holds B b (x :: q)) :
    (b.getByte B).2 = (E.ok, some x) ∧ Holds B (b.getByte B).1 q := by
  obtain ⟨h1, h2, h3, h4, h5⟩ := h
  simp only [List.length_cons] at h2 h3 h4
  have hn : ¬ (b.nr ≤ 0) := by omega
  have h0 := h5 0 (by simp)
  simp only [Nat.add_zero, Nat.mod_eq_of_lt h1, List.getElem_cons_zero] at h0
  simp only [getByte, hn, if_false]
  have hread : (if b.read < B - 1 then b.read + 1 else 0) = (b.read + 1) % B := by
    rw [mod_cases h1 (by omega)]
    split <;> split <;> omega
  refine ⟨by simp [h0], ?_⟩
  have hmod : ∀ k, ((b.read + 1) % B + k) % B = (b.read + (k + 1)) % B := by
    intro k; rw [Nat.mod_add_mod]; congr 1; omega
  constructor
  · show (if b.read < B - 1 then b.read + 1 else 0) < B
    split <;> omega
  · show b.nr - 1 = q.length; omega
  · omega
  · show b.write = ((if b.read < B - 1 then b.read + 1 else 0) + q.length) % B
    rw [hread, hmod, h4]
  · intro i hi
    show b.data (((if b.read < B - 1 then b.read + 1 else 0) + i) % B) = _
    rw [hread, hmod, h5 (i + 1) (by simp; omega)]
    simp

theorem holds_addLoop {B : Nat} (xs : List Byte) {b : XBuf} {q : List Byte} (h : Holds B b q)
    (hlt : q.length + xs.length ≤ B) :
    (b.addLoop B xs).2 = E.ok ∧ Holds B (b.addLoop B xs).1 (q ++ xs) := by
  induction xs generalizing b q with
  | nil => simp [addLoop]; exact h
  | cons x xs ih =>
    simp only [List.length_cons] at hlt
    obtain ⟨h1, h2⟩ := holds_add h x (by omega)
    simp only [addLoop]
    rw [h1]
    simp only [ne_eq, not_true_eq_false, if_false]
    have := ih h2 (by simp; omega)
    simpa using this

theorem holds_remove {B : Nat} {b : XBuf} {q : List Byte} (h : Holds B b q) (n : Nat)
    (hn : n ≤ q.length) :
    (b.removeBytes B n).2 = E.ok ∧ Holds B (b.removeBytes B n).1 (q.take (q.length - n)) := by
  obtain ⟨h1, h2, h3, h4, h5⟩ := h
  have hne : ¬ (b.nr < n) := by omega
  simp only [removeBytes, hne, if_false]
  refine ⟨trivial, ?_⟩
  have hl : (q.take (q.length - n)).length = q.length - n := by simp
  constructor
  · exact h1
  · rw [hl]; show b.nr - n = q.length - n; omega
  · omega
  · rw [hl]
    show (if n ≤ b.write then b.write - n else B - n + b.write) = _
    rw [mod_cases h1 (by omega)]
    rw [mod_cases h1 h3] at h4
    grind
  · intro i hi
    rw [hl] at hi
    show b.data ((b.read + i) % B) = _
    rw [h5 i (by omega)]
    simp

theorem holds_step {B : Nat} {b : XBuf} {q : List Byte} (h : Holds B b q) (op : QOp) :
    (b.step B op).2 = (qstep B q op).2 ∧ Holds B (b.step B op).1 (qstep B q op).1 := by
  cases op with
  | add x =>
    simp only [step, qstep]
    by_cases hlt : q.length < B
    · obtain ⟨h1, h2⟩ := holds_add h x hlt
      rw [h1]; simp only [hlt, if_true]; exact ⟨trivial, h2⟩
    · have : B ≤ b.nr := by have := h.nr; omega
      simp [addByte, this, hlt]; exact h
  | get =>
    cases q with
    | nil =>
      have := h.nr
      simp only [List.length_nil] at this
      simp [step, qstep, getByte, this]
      exact h
    | cons x q =>
      obtain ⟨h1, h2⟩ := holds_get h
      simp only [step, qstep]
      refine ⟨?_, h2⟩
      simp [h1]
  | addStr xs =>
    simp only [step, qstep, addStr]
    have hnr := h.nr
    by_cases hlt : q.length + xs.length < B
    · have : xs.length < B - b.nr := by omega
      obtain ⟨h1, h2⟩ := holds_addLoop xs h (by omega)
      simp only [this, if_true, hlt]
      refine ⟨?_, h2⟩
      rw [h1]
    · have : ¬ (xs.length < B - b.nr) := by omega
      simp [this, hlt]; exact h
  | dropLast n =>
    simp only [step, qstep]
    by_cases hn : n ≤ q.length
    · obtain ⟨h1, h2⟩ := holds_remove h n hn
      rw [h1]; simp only [hn, if_true]; exact ⟨trivial, h2⟩
    · have : b.nr < n := by have := h.nr; omega
      simp [removeBytes, this, hn]; exact h
  | len => exact ⟨by simp [step, qstep, getLen, h.nr], h⟩

theorem holds_run {B : Nat} (ops : List QOp) {b : XBuf} {q : List Byte} (h : Holds B b q) :
    (b.run B ops).2 = (qrun B q ops).2 ∧ Holds B (b.run B ops).1 (qrun B q ops).1 := by
  induction ops generalizing b q with
  | nil => exact ⟨rfl, h⟩
  | cons op ops ih =>
    obtain ⟨h1, h2⟩ := holds_step h op
    obtain ⟨h3, h4⟩ := ih h2
    refine ⟨?_, h4⟩
    show (b.step B op).2 :: _ = (qstep B q op).2 :: _
    rw [h1]; exact congrArg _ h3

theorem holds_getChars {B : Nat} (n : Nat) {b : XBuf} {cs q : List Byte} (hn : cs.length = n)
    (h : Holds B b (cs ++ q)) :
    (b.getChars B n).2 = (E.ok, cs) ∧ Holds B (b.getChars B n).1 q := by
  induction n generalizing b cs with
  | zero =>
    have : cs = [] := List.eq_nil_of_length_eq_zero hn
    subst this
    exact ⟨rfl, h⟩
  | succ n ih =>
    cases cs with
    | nil => simp at hn
    | cons c cs =>
      obtain ⟨h1, h2⟩ := holds_get (q := cs ++ q) h
      obtain ⟨h3, h4⟩ := ih (by simpa using hn) h2
      have e : b.getByte B = ((b.getByte B).1, E.ok, some c) := by rw [← h1]
      simp only [getChars]
      rw [e]
      simp only [ne_eq, not_true_eq_false, if_false]
      refine ⟨?_, h4⟩
      simp [h3]

end XBuf
end LiCan
