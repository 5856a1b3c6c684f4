import Verif.Model.CtrlQueue
import Verif.Lemmas.StackExample
/-! # Control messages through a queue (C148) -/
namespace LiCan
namespace Spec

/-- the message is for a module of the table that is awake -/
def ForAwake (env : Env) (n : Node) (nr : Nat) : Prop :=
  ∃ tp, tp < env.maxMod ∧ (n.rows tp).nr = nr ∧ (∀ i < tp, (n.rows i).nr ≠ nr) ∧ n.silent tp ≠ 0

/-- no message arrives while the reader is between reading the state and writing it -/
def Whole (env : Env) (atomic : Bool) (len : Nat) (q : CtrlQ) : List CEv → Prop
  | [] => True
  | e :: es => (match e, q.pc with | .rx .., .store _ => False | _, _ => True) ∧ Whole env atomic len (q.step env atomic len e) es

end Spec

namespace CtrlQ
open Spec

theorem found_iff (env : Env) (n : Node) (nr tp : Nat) :
    n.findNr env nr = some tp ↔ tp < env.maxMod ∧ (n.rows tp).nr = nr ∧ ∀ i < tp, (n.rows i).nr ≠ nr := by
  unfold Node.findNr
  rw [List.find?_range_eq_some]
  simp
  constructor
  · rintro ⟨a, b, c⟩; exact ⟨b, a, c⟩
  · rintro ⟨a, b, c⟩; exact ⟨b, a, c⟩

theorem advance_mod {len i : Nat} (h16 : len < 65536) (hi : i < len) : advance len i = (i + 1) % len := by
  unfold advance u16
  split
  · rw [Nat.mod_eq_of_lt (by omega : i + 1 < 65536), Nat.mod_eq_of_lt (by omega)]
  · have : i + 1 = len := by omega
    rw [this, Nat.mod_self]

/-- `w`: the entries waiting -/
structure Inv (len : Nat) (q : CtrlQ) (w : List CEntry) : Prop where
  acc : q.acc = q.got ++ w
  read : q.read < len
  write : q.write = (q.read + w.length) % len
  buf : ∀ i (h : i < w.length), q.buf ((q.read + i) % len) = w[i]
  state : q.state = w.length + (if q.pc = .idle then 0 else 1)
  room : q.state ≤ len
  reg : ∀ v, q.pc = .store v → v = q.state
  woken : q.woken = q.acc.length

variable {env : Env} {atomic : Bool} {len : Nat}

theorem Inv.port {q : CtrlQ} {w : List CEntry} (h16 : len < 65536) (h : Inv len q w) : ∃ w', Inv len (q.port atomic len) w' := by
  obtain ⟨h1, h2, h3, h4, h5, h6, h7, h8⟩ := h
  unfold CtrlQ.port
  cases hp : q.pc with
  | idle =>
    rw [hp] at h5
    dsimp only
    by_cases h0 : q.state = 0
    · rw [if_pos h0]; exact ⟨w, h1, h2, h3, h4, by rw [hp]; exact h5, h6, by rw [hp]; exact nofun, h8⟩
    · rw [if_neg h0]
      cases w with
      | nil => exact absurd h5 h0
      | cons x w =>
        have hx : q.buf q.read = x := by
          have := h4 0 (by simp)
          rwa [Nat.add_zero, Nat.mod_eq_of_lt h2] at this
        simp only [List.length_cons, if_true] at h5 h3 h4
        refine ⟨w, by simp [h1, hx], ?_, ?_, ?_, by simpa using h5, h6, nofun, h8⟩
        · show advance len q.read < len
          rw [advance_mod h16 h2]; exact Nat.mod_lt _ (by omega)
        · show q.write = (advance len q.read + w.length) % len
          rw [advance_mod h16 h2, h3, Nat.mod_add_mod]; congr 1; omega
        · intro i hi
          show q.buf ((advance len q.read + i) % len) = _
          rw [advance_mod h16 h2, Nat.mod_add_mod]
          have := h4 (i + 1) (by omega)
          rw [show q.read + 1 + i = q.read + (i + 1) by omega, this]
          rfl
  | sub =>
    rw [hp] at h5
    dsimp only
    cases atomic with
    | true =>
      refine ⟨w, h1, h2, h3, h4, ?_, ?_, nofun, h8⟩
      · show q.state - 1 = w.length + 0
        rw [h5]; simp
      · show q.state - 1 ≤ len
        omega
    | false =>
      refine ⟨w, h1, h2, h3, h4, ?_, h6, ?_, h8⟩
      · show q.state = w.length + (if CPc.store q.state = .idle then 0 else 1)
        rw [h5]; simp
      · intro v hv
        have : CPc.store q.state = CPc.store v := hv
        injection this with this; exact this.symm
  | store v =>
    have := h7 v hp
    subst this
    rw [hp] at h5
    refine ⟨w, h1, h2, h3, h4, ?_, ?_, nofun, h8⟩
    · show q.state - 1 = w.length + 0
      rw [h5]; simp
    · show q.state - 1 ≤ len
      omega

theorem Inv.rx {q : CtrlQ} {w : List CEntry} (h16 : len < 65536) (n : Node) (nr : Nat) (src : List Byte)
    (hs : ∀ v, q.pc ≠ .store v) (h : Inv len q w) : ∃ w', Inv len (q.rx env len n nr src).1 w' := by
  unfold CtrlQ.rx
  split
  · exact ⟨w, h⟩
  split
  · exact ⟨w, h⟩
  split
  · exact ⟨w, h⟩
  · next hr =>
    obtain ⟨h1, h2, h3, h4, h5, h6, h7, h8⟩ := h
    have hl : w.length < len := by
      have : w.length ≤ q.state := by rw [h5]; omega
      omega
    generalize hx : (nr, (List.range 8).map fun i => src.getD i 0) = x
    dsimp only
    refine ⟨w ++ [x], by simp [h1], h2, ?_, ?_, ?_, ?_, fun v hv => absurd hv (hs v), by simp [h8]⟩
    · show advance len q.write = _
      rw [h3, advance_mod h16 (Nat.mod_lt _ (by omega)), Nat.mod_add_mod]
      simp [Nat.add_assoc]
    · intro i hi
      show upd q.buf q.write x ((q.read + i) % len) = _
      simp only [List.length_append, List.length_singleton] at hi
      by_cases hw : i < w.length
      · have hne : (q.read + i) % len ≠ q.write := by
          rw [h3]
          intro e
          have hr2 := h2
          rcases Nat.lt_or_ge (q.read + i) len with a | a <;> rcases Nat.lt_or_ge (q.read + w.length) len with b | b
          · rw [Nat.mod_eq_of_lt a, Nat.mod_eq_of_lt b] at e; omega
          · rw [Nat.mod_eq_of_lt a, Nat.mod_eq_sub_mod b, Nat.mod_eq_of_lt (by omega)] at e; omega
          · omega
          · rw [Nat.mod_eq_sub_mod a, Nat.mod_eq_of_lt (by omega), Nat.mod_eq_sub_mod b, Nat.mod_eq_of_lt (by omega)] at e; omega
        unfold upd
        rw [if_neg hne, h4 i hw, List.getElem_append_left hw]
      · have : i = w.length := by omega
        subst this
        unfold upd
        rw [if_pos h3.symm]; simp
    · show u16 (q.state + 1) = _
      unfold u16
      rw [Nat.mod_eq_of_lt (by omega), h5]
      simp; omega
    · show u16 (q.state + 1) ≤ len
      unfold u16
      rw [Nat.mod_eq_of_lt (by omega)]; omega

theorem reached (h0 : 0 < len) (h16 : len < 65536) (es : List CEv) (hw : Whole env atomic len {} es) :
    ∃ w, Inv len (run env atomic len {} es) w := by
  suffices h : ∀ (es : List CEv) (q : CtrlQ), (∃ w, Inv len q w) → Whole env atomic len q es → ∃ w, Inv len (run env atomic len q es) w from
    h es {} ⟨[], rfl, h0, (by simp), (by simp), rfl, Nat.zero_le _, nofun, rfl⟩ hw
  intro es
  induction es with
  | nil => intro q h _; exact h
  | cons e es ih =>
    rintro q ⟨w, h⟩ hq
    refine ih _ ?_ hq.2
    cases e with
    | port => exact h.port h16
    | rx n nr src => exact h.rx h16 n nr src fun v hv => by have := hq.1; rw [hv] at this; exact this

/-- C148, what holds, for any length of the queue: if no message arrives while the reader is between reading and writing the state, then in every
history the entries taken are the first of the entries accepted, in order, none lost, doubled or mixed; at most `len` wait; the port was woken
once for each entry; and when the reader is idle the state is the number of entries waiting. -/
theorem C148_partial (h0 : 0 < len) (h16 : len < 65536) (es : List CEv) (hw : Whole env atomic len {} es) :
    (run env atomic len {} es).got <+: (run env atomic len {} es).acc ∧
    (run env atomic len {} es).acc.length ≤ (run env atomic len {} es).got.length + len ∧
    (run env atomic len {} es).woken = (run env atomic len {} es).acc.length ∧
    ((run env atomic len {} es).pc = .idle →
      (run env atomic len {} es).got.length + (run env atomic len {} es).state = (run env atomic len {} es).acc.length) := by
  obtain ⟨w, h⟩ := reached h0 h16 es hw
  generalize run env atomic len {} es = q at h
  have hl : w.length ≤ len := by
    have a := h.state; have b := h.room; omega
  refine ⟨⟨w, h.acc.symm⟩, by rw [h.acc, List.length_append]; omega, h.woken, fun hp => ?_⟩
  rw [h.acc, List.length_append, h.state, hp]; simp

/-- C148: if the state is decreased with interrupts off nothing more is needed. -/
theorem C148_atomic (h0 : 0 < len) (h16 : len < 65536) (es : List CEv) :
    (run env true len {} es).got <+: (run env true len {} es).acc ∧
    (run env true len {} es).acc.length ≤ (run env true len {} es).got.length + len := by
  have hw : Whole env true len {} es := by
    suffices h : ∀ (es : List CEv) (q : CtrlQ), (∀ v, q.pc ≠ .store v) → Whole env true len q es from h es {} nofun
    intro es
    induction es with
    | nil => exact fun _ _ => trivial
    | cons e es ih =>
      intro q hq
      refine ⟨?_, ih _ ?_⟩
      · cases hp : q.pc with
        | store v => exact absurd hp (hq v)
        | idle => cases e <;> trivial
        | sub => cases e <;> trivial
      · cases e with
        | port =>
          intro v
          show (q.port true len).pc ≠ _
          unfold CtrlQ.port
          cases hp : q.pc with
          | store v => exact absurd hp (hq v)
          | idle =>
            dsimp only
            split
            · rw [hp]; exact nofun
            · exact nofun
          | sub => exact nofun
        | rx n nr src =>
          intro v
          show (q.rx env len n nr src).1.pc ≠ _
          unfold CtrlQ.rx
          split
          · exact hq v
          split
          · exact hq v
          split
          · exact hq v
          · exact hq v
  obtain ⟨a, b, -⟩ := C148_partial h0 h16 es hw
  exact ⟨a, b⟩

/-- C148, the writer exactly, in any state: a message is entered (number and eight bytes, at the end) iff it is for an awake module of the table and the
state is below the length; the overflow is returned iff it is for such a module and the state is not; in every other case the call returns
OK and nothing happens. -/
theorem C148_accepted_iff (q : CtrlQ) (n : Node) (nr : Nat) (src : List Byte) :
    (ForAwake env n nr ∧ q.state < len →
      (q.rx env len n nr src).2 = E.ok ∧
      (q.rx env len n nr src).1.acc = q.acc ++ [(nr, (List.range 8).map fun i => src.getD i 0)] ∧
      (q.rx env len n nr src).1.woken = q.woken + 1 ∧ (q.rx env len n nr src).1.got = q.got) ∧
    (ForAwake env n nr ∧ ¬ q.state < len → q.rx env len n nr src = (q, E.asyncRxOverflow)) ∧
    (¬ ForAwake env n nr → q.rx env len n nr src = (q, E.ok)) := by
  have hA : ForAwake env n nr ↔ ∃ tp, n.findNr env nr = some tp ∧ n.silent tp ≠ 0 := by
    unfold ForAwake
    constructor
    · rintro ⟨tp, a, b, c, d⟩; exact ⟨tp, (found_iff ..).2 ⟨a, b, c⟩, d⟩
    · rintro ⟨tp, a, d⟩; obtain ⟨a, b, c⟩ := (found_iff ..).1 a; exact ⟨tp, a, b, c, d⟩
  rw [hA]
  unfold CtrlQ.rx
  cases hf : n.findNr env nr with
  | none => exact ⟨fun ⟨⟨_, h, _⟩, _⟩ => (nomatch h), fun ⟨⟨_, h, _⟩, _⟩ => (nomatch h), fun _ => rfl⟩
  | some tp =>
    dsimp only
    by_cases hs : n.silent tp = 0
    · rw [if_pos hs]
      refine ⟨?_, ?_, fun _ => rfl⟩ <;> (rintro ⟨⟨t, h, k⟩, _⟩; injection h with h; subst h; exact absurd hs k)
    · rw [if_neg hs]
      refine ⟨?_, ?_, fun k => absurd ⟨tp, rfl, hs⟩ k⟩
      · rintro ⟨-, h⟩
        rw [if_neg (by simpa using h)]
        exact ⟨rfl, rfl, rfl, rfl⟩
      · rintro ⟨-, h⟩
        rw [if_pos h]

/-- C148: a message that is dropped without an error would have had no effect when handled at once (`Model/Async`), as without the queue. -/
theorem C148_dropped_harmless (ae : AEnv) (s : Stack) (q : CtrlQ) (nr : Nat) (src : List Byte)
    (h : ¬ ForAwake ae.toEnv s.slv.node nr) :
    q.rx ae.toEnv len s.slv.node nr src = (q, E.ok) ∧ s.asyncRx ae nr src = (s, E.ok) := by
  refine ⟨(C148_accepted_iff q _ nr src).2.2 h, ?_⟩
  unfold Stack.asyncRx
  cases hf : s.slv.node.findNr ae.toEnv nr with
  | none => rfl
  | some tp =>
    dsimp only
    rw [if_pos]
    refine Classical.byContradiction fun hs => h ?_
    obtain ⟨a, b, c⟩ := (found_iff ..).1 hf
    exact ⟨tp, a, b, c, hs⟩

/-! ## Examples -/
open Stack

/-- messages for module 5 told apart by their first byte -/
def exMsg (b : Byte) : CEv := .rx exS.slv.node 5 [b, 1, 2, 3, 4, 5, 6, 7]

/-- the hypotheses of `C148_accepted_iff`: module 5 is addressed, module 77 is not -/
example : ForAwake exA.toEnv exS.slv.node 5 ∧ ¬ ForAwake exA.toEnv exS.slv.node 77 := by
  constructor
  · exact ⟨0, by decide +kernel, by decide +kernel, by simp, by decide +kernel⟩
  · rintro ⟨tp, a, b, -⟩
    have : ∀ tp < exA.toEnv.maxMod, (exS.slv.node.rows tp).nr ≠ 77 := by decide +kernel
    exact this tp a b

/-- the hypothesis of `C148_partial`: a message between taking an entry and reading the state is allowed; the index goes round -/
def exCalm : List CEv := [exMsg 1, exMsg 2, .port, exMsg 3, .port, .port, exMsg 3, .port, .port, .port, .port, .port, .port]

instance (env : Env) (atomic : Bool) (len : Nat) : ∀ (q : CtrlQ) (es : List CEv), Decidable (Whole env atomic len q es)
  | _, [] => isTrue trivial
  | q, e :: es => by
    have d := instDecidableWhole env atomic len (q.step env atomic len e) es
    unfold Whole
    cases e <;> cases q.pc <;> dsimp only <;> infer_instance

example : Whole exA.toEnv false 2 {} exCalm ∧ (run exA.toEnv false 2 {} exCalm).got.map (·.2.head?) = [some 1, some 2, some 3] ∧
    (run exA.toEnv false 2 {} exCalm).state = 0 := by decide +kernel

/-- C148 as wished is false if the reader decreases the state with interrupts on: a message arriving between the read and the write is accepted and
the port woken for it, but the state says that nothing waits.  The next two messages are accepted as well, the second in the place of the one
not taken: message 2 is lost without an error, and message 4 is handled before message 3. -/
theorem C148_counterexample_lost :
    (run exA.toEnv false 2 {} [exMsg 1, .port, .port, exMsg 2, .port]).state = 0 ∧
    (run exA.toEnv false 2 {} [exMsg 1, .port, .port, exMsg 2, .port]).acc.map (·.2.head?) = [some 1, some 2] ∧
    (run exA.toEnv false 2 {} [exMsg 1, .port, .port, exMsg 2, .port]).got.map (·.2.head?) = [some 1] ∧
    (run exA.toEnv false 2 {} ([exMsg 1, .port, .port, exMsg 2, .port, exMsg 3, exMsg 4] ++ List.replicate 9 .port)).acc.map (·.2.head?) =
      [some 1, some 2, some 3, some 4] ∧
    (run exA.toEnv false 2 {} ([exMsg 1, .port, .port, exMsg 2, .port, exMsg 3, exMsg 4] ++ List.replicate 9 .port)).got.map (·.2.head?) =
      [some 1, some 4, some 3] := by decide +kernel

end CtrlQ
end LiCan
