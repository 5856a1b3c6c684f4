import Verif.Model.BufIrq
import Verif.Lemmas.XBuf
/-! # C140: the transfer buffer delivers the bytes received, although data arrive while it is read -/
namespace LiCan
namespace BufIrq

/-! ## Specification -/
namespace Spec

/-- the bytes of the read in progress that has left the buffer -/
def air (w : BufIrq) : List Byte := match w.pc with | some (.inc x) => [x] | _ => []

/-- not more bytes unread than the buffer has places -/
def Fits (B : Nat) (w : BufIrq) : Prop := w.acc.length ≤ w.got.length + (air w).length + B

/-- An interrupt at a harmless moment: no data between reading and writing `nr_bytes`, no removal during a read. -/
def Harmless (w : BufIrq) : Evt → Prop
  | .main => True
  | .frame _ => w.held = false
  | .drop _ => w.pc = none ∨ w.pc = some .check ∨ ∃ x, w.pc = some (.inc x)

/-- data only, and never more unread than fits -/
def DataFits (B : Nat) (w : BufIrq) : Evt → Prop
  | .main => True
  | .frame xs => Fits B (w.frame B xs)
  | .drop _ => False

/-- a condition at every event of a history -/
def Always (B : Nat) (P : BufIrq → Evt → Prop) : BufIrq → List Evt → Prop
  | _, [] => True
  | w, e :: es => P w e ∧ Always B P (w.step B e) es

end Spec

open Spec XBuf

/-- the buffer with a consistent number and, if the byte has been taken, read index -/
def fix (B : Nat) (w : BufIrq) (q : List Byte) : XBuf :=
  { w.b with nr := q.length
             read := match w.pc with | some (.inc _) => if w.b.read < B - 1 then w.b.read + 1 else 0 | _ => w.b.read }

/-- The invariant: the buffer holds the bytes `q`, of which `hid` are not counted. -/
structure Inv (B : Nat) (w : BufIrq) (q : List Byte) : Prop where
  holds : Holds B (fix B w q) q
  acc : w.acc = w.got ++ air w ++ q
  nr : match w.pc with
    | none | some .check | some (.inc _) => w.b.nr + w.hid = q.length
    | some .data => w.b.nr + w.hid = q.length ∧ 0 < w.b.nr
    | some (.dec x) => w.b.nr + w.hid = q.length ∧ 0 < w.b.nr ∧ ∃ q', q = x :: q'
    | some (.decW x v) => v + w.hid = q.length ∧ 0 < v ∧ v ≤ w.b.nr ∧ ∃ q', q = x :: q'

variable {B : Nat}

theorem inv_main (hB : B ≤ 65535) {w : BufIrq} {q : List Byte} (h : Inv B w q) : ∃ q', Inv B (w.main B) q' := by
  obtain ⟨b, pc, acc, got, under, hid⟩ := w
  obtain ⟨h1, h2, h3⟩ := h
  cases pc with
  | none => exact ⟨q, h1, h2, h3⟩
  | some p =>
    cases p with
    | check =>
      by_cases hz : b.nr ≤ 0
      · simp only [main, if_pos hz]; exact ⟨q, h1, h2, h3⟩
      · simp only [main, if_neg hz]; exact ⟨q, h1, h2, h3, by show 0 < b.nr; omega⟩
    | data =>
      obtain ⟨h3, h4⟩ := h3
      refine ⟨q, h1, h2, h3, h4, ?_⟩
      cases q with
      | nil => simp at h3; have h4 : 0 < b.nr := h4; omega
      | cons x q' =>
        refine ⟨q', ?_⟩
        have := h1.cont 0 (by simp)
        have r := h1.read
        simp only [fix, Nat.add_zero] at this r
        rw [Nat.mod_eq_of_lt r] at this
        rw [show b.data b.read = x from this]
    | dec x =>
      obtain ⟨h3, h4, h5⟩ := h3
      exact ⟨q, h1, h2, h3, h4, Nat.le_refl _, h5⟩
    | decW x v =>
      obtain ⟨h3, h4, h5, q', rfl⟩ := h3
      have g := (holds_get h1).2
      have hc := h1.cap
      have hv : (v + 65535) % 65536 = v - 1 := by
        have h3 : v + hid = q'.length + 1 := by simpa using h3
        simp at hc
        omega
      refine ⟨q', ?_, ?_, ?_⟩
      · have e : fix B (main B ⟨b, some (.decW x v), acc, got, under, hid⟩) q' = (XBuf.getByte (fix B ⟨b, some (.decW x v), acc, got, under, hid⟩ (x :: q')) B).1 := by
          simp [main, fix, XBuf.getByte]
          rfl
        rw [e]; exact g
      · show acc = got ++ [x] ++ q'
        rw [show acc = got ++ [] ++ x :: q' from h2]; simp
      · show (v + 65535) % 65536 + hid = q'.length
        rw [hv]
        have h3 : v + hid = q'.length + 1 := by simpa using h3
        have h4 : 0 < v := h4
        omega
    | inc x =>
      refine ⟨q, h1, ?_, h3⟩
      show acc = (got ++ [x]) ++ [] ++ q
      rw [show acc = got ++ [x] ++ q from h2]; simp

theorem frame_grows (xs : List Byte) : ∀ w : BufIrq, w.acc.length ≤ (w.frame B xs).acc.length ∧ (w.frame B xs).got = w.got ∧
    (w.frame B xs).pc = w.pc := by
  induction xs with
  | nil => intro w; exact ⟨Nat.le_refl _, rfl, rfl⟩
  | cons x xs ih =>
    intro w
    unfold frame
    split
    · exact ⟨Nat.le_refl _, rfl, rfl⟩
    · obtain ⟨i1, i2, i3⟩ := ih { w with b := (w.b.addByte B x).1, acc := w.acc ++ [x], hid := if w.held then w.hid + 1 else w.hid }
      refine ⟨?_, i2, i3⟩
      simp at i1
      omega

theorem inv_add {w : BufIrq} {q : List Byte} (h : Inv B w q) (x : Byte) (ok : ¬ (w.b.addByte B x).2 ≠ E.ok) (hl : q.length < B) :
    Inv B { w with b := (w.b.addByte B x).1, acc := w.acc ++ [x], hid := if w.held then w.hid + 1 else w.hid } (q ++ [x]) := by
  obtain ⟨b, pc, acc, got, under, hid⟩ := w
  obtain ⟨h1, h2, h3⟩ := h
  have hn : ¬ B ≤ b.nr := by
    intro hn
    simp [XBuf.addByte, hn, E.bufOverflow, E.ok] at ok
  have g := (holds_add h1 x hl).2
  have hn' : ¬ B ≤ q.length := by omega
  refine ⟨?_, ?_, ?_⟩
  · have e : fix B { b := (b.addByte B x).1, pc := pc, acc := acc ++ [x], got := got, under := under, hid := if held ⟨b, pc, acc, got, under, hid⟩ then hid + 1 else hid } (q ++ [x]) = (XBuf.addByte (fix B ⟨b, pc, acc, got, under, hid⟩ q) B x).1 := by
      simp [fix, XBuf.addByte, hn, hn']
    rw [e]; exact g
  · show acc ++ [x] = got ++ air ⟨b, pc, acc, got, under, hid⟩ ++ (q ++ [x])
    have h2 : acc = got ++ air ⟨b, pc, acc, got, under, hid⟩ ++ q := h2
    generalize air ⟨b, pc, acc, got, under, hid⟩ = u at *
    rw [h2]; simp
  · have hb : (b.addByte B x).1.nr = b.nr + 1 := by simp [XBuf.addByte, hn]
    cases pc with
    | none =>
      show (b.addByte B x).1.nr + hid = (q ++ [x]).length
      have h3 : b.nr + hid = q.length := h3
      simp [hb]; omega
    | some p =>
      cases p with
      | check =>
        show (b.addByte B x).1.nr + hid = (q ++ [x]).length
        have h3 : b.nr + hid = q.length := h3
        simp [hb]; omega
      | data =>
        have h3 : b.nr + hid = q.length ∧ 0 < b.nr := h3
        show (b.addByte B x).1.nr + hid = (q ++ [x]).length ∧ 0 < (b.addByte B x).1.nr
        simp [hb]; omega
      | dec y =>
        have h3 : b.nr + hid = q.length ∧ 0 < b.nr ∧ ∃ q', q = y :: q' := h3
        show (b.addByte B x).1.nr + hid = (q ++ [x]).length ∧ 0 < (b.addByte B x).1.nr ∧ ∃ q', q ++ [x] = y :: q'
        obtain ⟨k1, k2, q', rfl⟩ := h3
        refine ⟨?_, by rw [hb]; omega, q' ++ [x], rfl⟩
        rw [hb]; simp at k1 ⊢; omega
      | decW y v =>
        have h3 : v + hid = q.length ∧ 0 < v ∧ v ≤ b.nr ∧ ∃ q', q = y :: q' := h3
        show v + (hid + 1) = (q ++ [x]).length ∧ 0 < v ∧ v ≤ (b.addByte B x).1.nr ∧ ∃ q', q ++ [x] = y :: q'
        obtain ⟨k1, k2, k3, q', rfl⟩ := h3
        refine ⟨?_, k2, by rw [hb]; omega, q' ++ [x], rfl⟩
        simp at k1 ⊢; omega
      | inc y =>
        show (b.addByte B x).1.nr + hid = (q ++ [x]).length
        have h3 : b.nr + hid = q.length := h3
        simp [hb]; omega

/-- data that fit -/
theorem inv_frame (xs : List Byte) : ∀ {w : BufIrq} {q : List Byte}, Inv B w q → Fits B (w.frame B xs) → ∃ q', Inv B (w.frame B xs) q' := by
  induction xs with
  | nil => intro w q h _; exact ⟨q, h⟩
  | cons x xs ih =>
    intro w q h hf
    unfold frame at hf ⊢
    by_cases ok : (w.b.addByte B x).2 ≠ E.ok
    · rw [if_pos ok]; exact ⟨q, h⟩
    · rw [if_neg ok] at hf ⊢
      refine ih (inv_add h x ok ?_) hf
      obtain ⟨g1, g2, g3⟩ := frame_grows (B := B) xs { w with b := (w.b.addByte B x).1, acc := w.acc ++ [x], hid := if w.held then w.hid + 1 else w.hid }
      unfold Fits at hf
      have ha : air (frame B { w with b := (w.b.addByte B x).1, acc := w.acc ++ [x], hid := if w.held then w.hid + 1 else w.hid } xs) = air w := by
        unfold air; rw [g3]
      rw [ha, g2] at hf
      have := congrArg List.length h.acc
      simp at this g1
      dsimp only at hf
      omega

/-- data outside the window -/
theorem inv_frame_free (xs : List Byte) : ∀ {w : BufIrq} {q : List Byte}, Inv B w q → w.hid = 0 → w.held = false →
    (∃ q', Inv B (w.frame B xs) q') ∧ (w.frame B xs).hid = 0 := by
  induction xs with
  | nil => intro w q h hz _; exact ⟨⟨q, h⟩, hz⟩
  | cons x xs ih =>
    intro w q h hz hh
    unfold frame
    by_cases ok : (w.b.addByte B x).2 ≠ E.ok
    · rw [if_pos ok]; exact ⟨⟨q, h⟩, hz⟩
    · rw [if_neg ok]
      have hn : ¬ B ≤ w.b.nr := by
        intro hn
        simp [XBuf.addByte, hn, E.bufOverflow, E.ok] at ok
      have hl : q.length < B := by
        have h3 := h.nr
        unfold held at hh
        split at h3
        · omega
        · omega
        · omega
        · omega
        · omega
        · next e => rw [e] at hh; cases hh
      have g := inv_add h x ok hl
      rw [hh] at g ⊢
      exact ih g hz hh

theorem inv_drop {w : BufIrq} {q : List Byte} (h : Inv B w q) (hz : w.hid = 0) (n : Nat)
    (hp : w.pc = none ∨ w.pc = some .check ∨ ∃ x, w.pc = some (.inc x)) : (∃ q', Inv B (w.drop B n) q') ∧ (w.drop B n).hid = 0 := by
  unfold drop
  by_cases ok : (w.b.removeBytes B n).2 ≠ E.ok
  · rw [if_pos ok]; exact ⟨⟨q, h⟩, hz⟩
  · rw [if_neg ok]
    refine ⟨?_, hz⟩
    obtain ⟨b, pc, acc, got, under, hid⟩ := w
    obtain ⟨h1, h2, h3⟩ := h
    have hz : hid = 0 := hz
    subst hz
    have hnr : b.nr = q.length := by rcases hp with hp | hp | ⟨x, hp⟩ <;> (have hp : pc = _ := hp; subst hp; exact h3)
    have hn : ¬ b.nr < n := by
      intro hn
      simp [XBuf.removeBytes, hn, E.bufUnderflow, E.ok] at ok
    have g := (holds_remove h1 n (by omega)).2
    refine ⟨q.take (q.length - n), ?_, ?_, ?_⟩
    · have e : fix B { b := (b.removeBytes B n).1, pc := pc, acc := acc.take (acc.length - n), got := got, under := under, hid := 0 } (q.take (q.length - n)) =
          (XBuf.removeBytes (fix B ⟨b, pc, acc, got, under, 0⟩ q) B n).1 := by
        have hq : ¬ q.length < n := by omega
        simp [fix, XBuf.removeBytes, hn, hq]
      rw [e]; exact g
    · show acc.take (acc.length - n) = got ++ air ⟨b, pc, acc, got, under, 0⟩ ++ q.take (q.length - n)
      have h2 : acc = got ++ air ⟨b, pc, acc, got, under, 0⟩ ++ q := h2
      have e : acc.length = (got ++ air ⟨b, pc, acc, got, under, 0⟩).length + q.length := by
        rw [← List.length_append]; exact congrArg List.length h2
      generalize got ++ air ⟨b, pc, acc, got, under, 0⟩ = u at *
      rw [show acc.length - n = u.length + (q.length - n) by omega, h2, List.take_length_add_append]
    · have hb : (b.removeBytes B n).1.nr + 0 = (q.take (q.length - n)).length := by
        simp [XBuf.removeBytes, hn]; omega
      rcases hp with hp | hp | ⟨x, hp⟩ <;> (have hp : pc = _ := hp; subst hp; exact hb)

/-! ## The property -/

/-- nothing received, nothing read -/
def start : BufIrq := { b := XBuf.zero }

theorem inv_start (h : 0 < B) : Inv B start [] := ⟨holds_zero h, rfl, rfl⟩

theorem run_inv_exact (hB : B ≤ 65535) (es : List Evt) : ∀ {w : BufIrq} {q : List Byte}, Inv B w q → Always B (DataFits B) w es →
    ∃ q', Inv B (w.run B es) q' := by
  induction es with
  | nil => intro w q h _; exact ⟨q, h⟩
  | cons e es ih =>
    intro w q h ha
    obtain ⟨h1, h2⟩ := ha
    have k : ∃ q', Inv B (w.step B e) q' := by
      cases e with
      | main => exact inv_main hB h
      | frame xs => exact inv_frame xs h h1
      | drop n => exact h1.elim
    obtain ⟨q', hq⟩ := k
    exact ih hq h2

theorem run_inv_free (hB : B ≤ 65535) (es : List Evt) : ∀ {w : BufIrq} {q : List Byte}, Inv B w q → w.hid = 0 → Always B Harmless w es →
    (∃ q', Inv B (w.run B es) q') ∧ (w.run B es).hid = 0 := by
  induction es with
  | nil => intro w q h hz _; exact ⟨⟨q, h⟩, hz⟩
  | cons e es ih =>
    intro w q h hz ha
    obtain ⟨h1, h2⟩ := ha
    have k : (∃ q', Inv B (w.step B e) q') ∧ (w.step B e).hid = 0 := by
      cases e with
      | main =>
        refine ⟨inv_main hB h, ?_⟩
        simp only [step, main]
        repeat' split
        all_goals exact hz
      | frame xs => exact inv_frame_free xs h hz h1
      | drop n => exact inv_drop h hz n h1
    obtain ⟨⟨q', hq⟩, hz'⟩ := k
    exact ih hq hz' h2

theorem main_under (w : BufIrq) : (w.main B).under = w.under + 1 ↔ w.pc = some .check ∧ w.b.nr = 0 := by
  obtain ⟨b, pc, acc, got, under, hid⟩ := w
  cases pc with
  | none => simp [main]
  | some p =>
    cases p with
    | check =>
      by_cases h : b.nr ≤ 0
      · simp only [main, if_pos h]
        have hz : b.nr = 0 := by omega
        simp [hz]
      · simp only [main, if_neg h]
        exact ⟨fun k => by have k : under = under + 1 := k; omega, fun k => absurd k.2 (by show ¬ b.nr = 0; omega)⟩
    | _ => simp [main]

/-- the facts that follow from the invariant -/
theorem Inv.facts {w : BufIrq} {q : List Byte} (h : Inv B w q) :
    w.got <+: w.acc ∧
    ((w.main B).under = w.under + 1 ↔ w.pc = some .check ∧ w.acc.length = w.got.length + w.hid) ∧
    (w.pc = none → w.b.getLen + w.hid = w.acc.length - w.got.length) ∧
    (w.pc = none → w.hid = 0 → (w.b.getChars B w.b.getLen).2 = (E.ok, w.acc.drop w.got.length)) := by
  have hl := congrArg List.length h.acc
  have hr := h.nr
  have ho := h.holds
  have hc := h.acc
  refine ⟨?_, ?_, ?_, ?_⟩
  · rw [h.acc, List.append_assoc]; exact List.prefix_append _ _
  · rw [main_under]
    constructor
    · rintro ⟨h1, h2⟩
      refine ⟨h1, ?_⟩
      rw [h1] at hr
      simp [air, h1] at hl
      have hr : w.b.nr + w.hid = q.length := hr
      omega
    · rintro ⟨h1, h2⟩
      refine ⟨h1, ?_⟩
      rw [h1] at hr
      simp [air, h1] at hl
      have hr : w.b.nr + w.hid = q.length := hr
      omega
  · intro h1
    rw [h1] at hr
    simp [air, h1] at hl
    have hr : w.b.nr + w.hid = q.length := hr
    show w.b.nr + w.hid = _
    omega
  · intro h1 hz
    rw [h1] at hr
    have hr : w.b.nr + w.hid = q.length := hr
    have e : fix B w q = w.b := by
      unfold fix
      rw [h1, ← hr, hz]
      rfl
    rw [e] at ho
    have g := (holds_getChars (q := []) w.b.nr (cs := q) (by omega) (by rw [List.append_nil]; exact ho)).1
    have hc : w.acc = w.got ++ q := by
      rw [hc]; simp [air, h1]
    rw [hc, List.drop_left]
    exact g

/-- **C140 (steps).**  Without an interruption the steps of a read are `xload_buffer_get_byte` of the buffer model. -/
theorem C140_steps (hB : B ≤ 65535) (w : BufIrq) (h : w.pc = none) (hn : w.b.nr ≤ B) :
    (w.b.nr = 0 → w.run B [.main, .main] = { w with under := w.under + 1 } ∧ w.b.getByte B = (w.b, E.bufUnderflow, none)) ∧
    (w.b.nr ≠ 0 → ∃ x, w.b.getByte B = ((w.b.getByte B).1, E.ok, some x) ∧
      w.run B [.main, .main, .main, .main, .main, .main] = { w with b := (w.b.getByte B).1, got := w.got ++ [x] }) := by
  obtain ⟨b, pc, acc, got, under, hid⟩ := w
  have h : pc = none := h
  subst h
  constructor
  · intro hz
    have hz : b.nr = 0 := hz
    simp [run, step, main, XBuf.getByte, hz]
  · intro hz
    have hz : ¬ b.nr ≤ 0 := by have hz : b.nr ≠ 0 := hz; omega
    have hn : b.nr ≤ B := hn
    have e : (b.nr + 65535) % 65536 = b.nr - 1 := by omega
    refine ⟨b.data b.read, ?_, ?_⟩
    · simp only [XBuf.getByte, if_neg hz]
    · have e2 : main B ⟨b, some .check, acc, got, under, hid⟩ = ⟨b, some .data, acc, got, under, hid⟩ := by
        simp only [main, if_neg hz]
      show main B (main B (main B (main B (main B ⟨b, some .check, acc, got, under, hid⟩)))) = _
      rw [e2]
      simp only [main, XBuf.getByte, if_neg hz, e]

/-- **C140 (messages).**  A data frame and the end of a block do to the buffer what the loop and the removal of `Stack.dlData` and
`Stack.dlBlockEnd` do; the frame notes the bytes the loop took: all of them if it returned OK, and otherwise those before the refused one. -/
theorem C140_steps_messages (xs : List Byte) : ∀ w : BufIrq,
    (w.frame B xs).b = (w.b.addLoop B xs).1 ∧
    ((w.b.addLoop B xs).2 = E.ok → (w.frame B xs).acc = w.acc ++ xs) ∧
    ((w.b.addLoop B xs).2 ≠ E.ok → ∃ ys x zs, xs = ys ++ x :: zs ∧ (w.frame B xs).acc = w.acc ++ ys ∧
      (w.b.addLoop B ys).2 = E.ok ∧ (((w.b.addLoop B ys).1).addByte B x).2 = (w.b.addLoop B xs).2) ∧
    ∀ n, (w.drop B n).b = (w.b.removeBytes B n).1 := by
  have hd : ∀ (w : BufIrq) n, (w.drop B n).b = (w.b.removeBytes B n).1 := by
    intro w n
    unfold drop XBuf.removeBytes
    split <;> split <;> simp_all
  have hk : ∀ (b : XBuf) x, (b.addByte B x).2 ≠ E.ok → (b.addByte B x).1 = b := by
    intro b x h
    revert h
    unfold XBuf.addByte
    dsimp only
    split
    · intro _; rfl
    · intro h; exact absurd rfl h
  induction xs with
  | nil => exact fun w => ⟨rfl, fun _ => (List.append_nil _).symm, fun h => absurd rfl h, hd w⟩
  | cons x xs ih =>
    intro w
    have el : ∀ zs, w.b.addLoop B (x :: zs) = if (w.b.addByte B x).2 ≠ E.ok then ((w.b.addByte B x).1, (w.b.addByte B x).2) else (w.b.addByte B x).1.addLoop B zs :=
      fun _ => rfl
    have ef : w.frame B (x :: xs) = if (w.b.addByte B x).2 ≠ E.ok then w
        else frame B { w with b := (w.b.addByte B x).1, acc := w.acc ++ [x], hid := if w.held then w.hid + 1 else w.hid } xs := rfl
    by_cases h : (w.b.addByte B x).2 ≠ E.ok
    · rw [el, ef, if_pos h, if_pos h]
      exact ⟨(hk _ _ h).symm, fun k => absurd k h, fun _ => ⟨[], x, xs, rfl, (List.append_nil _).symm, rfl, rfl⟩, hd w⟩
    · rw [el, ef, if_neg h, if_neg h]
      obtain ⟨i1, i2, i3, -⟩ := ih { w with b := (w.b.addByte B x).1, acc := w.acc ++ [x], hid := if w.held then w.hid + 1 else w.hid }
      refine ⟨i1, fun k => (i2 k).trans (by simp), fun k => ?_, hd w⟩
      obtain ⟨ys, y, zs, e1, e2, e3, e4⟩ := i3 k
      refine ⟨x :: ys, y, zs, by rw [e1]; rfl, e2.trans (by simp), ?_, ?_⟩
      · rw [el, if_neg h]; exact e3
      · rw [el, if_neg h]; exact e4

/-- room for two of three bytes: the third is refused -/
example : ((start.b.addLoop 2 [1, 2, 3]).2 ≠ E.ok) ∧ (start.frame 2 [1, 2, 3]).acc = [1, 2] ∧ (start.b.addLoop 2 [1, 2]).2 = E.ok := by decide +kernel

/-- **C140 (partial).**  Frames never come between the reading and the writing of `nr_bytes`, block ends not during a read.  Then, in every history, the
bytes returned are the first of the bytes accepted; a read finds the buffer empty only if all were returned; and reading as many as the buffer says
there are gives exactly the rest.  Missing: the other moments, where it is false, `C140_exact`. -/
theorem C140_partial (h0 : 0 < B) (hB : B ≤ 65535) (es : List Evt) (h : Always B Harmless start es) :
    let w := start.run B es
    w.got <+: w.acc ∧
    ((w.main B).under = w.under + 1 ↔ w.pc = some .check ∧ w.acc = w.got) ∧
    (w.pc = none → w.b.getLen = w.acc.length - w.got.length ∧ (w.b.getChars B w.b.getLen).2 = (E.ok, w.acc.drop w.got.length)) := by
  obtain ⟨⟨q, hq⟩, hz⟩ := run_inv_free hB es (inv_start h0) rfl h
  obtain ⟨f1, f2, f3, f4⟩ := hq.facts
  intro w
  refine ⟨f1, f2.trans ?_, fun hp => ⟨?_, f4 hp hz⟩⟩
  rotate_left
  · have k := f3 hp
    rw [hz, Nat.add_zero] at k
    exact k
  have e : (start.run B es).hid = 0 := hz
  rw [e, Nat.add_zero]
  refine and_congr Iff.rfl ⟨fun hl => ?_, fun hl => by rw [hl]⟩
  exact (f1.eq_of_length hl.symm).symm

/-- **C140 (exact).**  Data frames at any moment, none lost for want of places.  The bytes returned are still the first of the bytes accepted, but
those accepted between the reading and the writing of `nr_bytes` are never counted again: the buffer says it is empty, and a read fails, while exactly
that many bytes have not been read. -/
theorem C140_exact (h0 : 0 < B) (hB : B ≤ 65535) (es : List Evt) (h : Always B (DataFits B) start es) :
    let w := start.run B es
    w.got <+: w.acc ∧
    ((w.main B).under = w.under + 1 ↔ w.pc = some .check ∧ w.acc.length = w.got.length + w.hid) ∧
    (w.pc = none → w.b.getLen + w.hid = w.acc.length - w.got.length) := by
  obtain ⟨q, hq⟩ := run_inv_exact hB es (inv_start h0) h
  obtain ⟨f1, f2, f3, -⟩ := hq.facts
  exact ⟨f1, f2, f3⟩

/-! ## Examples -/

def fr (k : UInt8) : Evt := .frame [k, k + 1, k + 2, k + 3, k + 4, k + 5, k + 6]

/-- a frame, the beginning of a read, a frame, the rest of the read -/
def exRace : List Evt := [fr 1, .main, .main, .main, .main, fr 11, .main, .main]

/-- six steps: one read -/
def exRead : List Evt := [.main, .main, .main, .main, .main, .main]

/-- decides `Always` for `Harmless` -/
def harmlessB (w : BufIrq) : Evt → Bool
  | .main => true
  | .frame _ => !w.held
  | .drop _ => w.pc == none || w.pc == some .check || (match w.pc with | some (.inc _) => true | _ => false)

theorem harmless_of {w : BufIrq} {e : Evt} (h : harmlessB w e = true) : Harmless w e := by
  cases e with
  | main => trivial
  | frame xs => simpa [harmlessB, Harmless] using h
  | drop n =>
    simp only [harmlessB, Bool.or_eq_true, beq_iff_eq] at h
    rcases h with (h | h) | h
    · exact .inl h
    · exact .inr (.inl h)
    · obtain ⟨b, pc, acc, got, under, hid⟩ := w
      cases pc with
      | none => cases h
      | some p => cases p <;> first | exact .inr (.inr ⟨_, rfl⟩) | cases h

def alwaysB (B : Nat) (P : BufIrq → Evt → Bool) : BufIrq → List Evt → Bool
  | _, [] => true
  | w, e :: es => P w e && alwaysB B P (w.step B e) es

theorem always_of {P : BufIrq → Evt → Bool} {Q : BufIrq → Evt → Prop} (h : ∀ w e, P w e = true → Q w e) (es : List Evt) :
    ∀ {w : BufIrq}, alwaysB B P w es = true → Always B Q w es := by
  induction es with
  | nil => intro w _; trivial
  | cons e es ih =>
    intro w hw
    simp only [alwaysB, Bool.and_eq_true] at hw
    exact ⟨h _ _ hw.1, ih hw.2⟩

/-- C140_partial: frames before, during and after a read, and the removal of three bytes -/
example : Always 140 Harmless start ([fr 1] ++ exRead ++ [.main, .main, fr 11, .main, .main, .main, fr 21, .drop 3, .main]) ∧
    (start.run 140 ([fr 1] ++ exRead ++ [.main, .main, fr 11, .main, .main, .main, fr 21, .drop 3, .main])).got = [1, 2] := by
  exact ⟨always_of (fun _ _ => harmless_of) _ (by decide +kernel), by decide +kernel⟩

/-- C140_exact: the race with places enough -/
example : Always 140 (DataFits 140) start (exRace ++ exRead) := by
  refine always_of (P := fun w e => match e with
    | .main => true
    | .frame xs => decide ((w.frame 140 xs).acc.length ≤ (w.frame 140 xs).got.length + (air (w.frame 140 xs)).length + 140)
    | .drop _ => false) (fun w e h => ?_) _ (by decide +kernel)
  cases e with
  | main => trivial
  | frame xs => exact (of_decide_eq_true h : (w.frame 140 xs).acc.length ≤ _)
  | drop n => cases h

/-- **C140 (counterexample: bytes that cannot be read).**  Fourteen bytes are accepted; a frame comes between the reading and the writing of `nr_bytes`.  After
seven reads the buffer says it is empty and the next read fails; seven bytes have not been read. -/
theorem C140_counterexample_lost :
    let w := start.run 140 (exRace ++ exRead ++ exRead ++ exRead ++ exRead ++ exRead ++ exRead ++ [.main, .main])
    w.acc = [1, 2, 3, 4, 5, 6, 7, 11, 12, 13, 14, 15, 16, 17] ∧ w.got = [1, 2, 3, 4, 5, 6, 7] ∧ w.under = 1 ∧ w.b.getLen = 0 := by
  decide +kernel

/-- **C140 (counterexample: unread bytes are overwritten).**  A buffer with room for fourteen bytes; after the race a third frame is accepted and overwrites six bytes:
the second read returns a byte of it. -/
theorem C140_counterexample_overwritten :
    let w := start.run 14 (exRace ++ [fr 21] ++ exRead ++ exRead)
    w.acc.length = 21 ∧ w.got = [1, 22, 23] ∧ ¬ w.got <+: w.acc := by
  decide +kernel

/-- **C140 (counterexample: a block end during a read).**  One byte is there, the end of a block removes it after the check: the read succeeds, and the buffer then claims
65535 bytes. -/
theorem C140_counterexample_wrap :
    let w := start.run 140 [.frame [9], .main, .main, .drop 1, .main, .main, .main, .main]
    w.acc = [] ∧ w.got = [9] ∧ w.b.getLen = 65535 := by
  decide +kernel

end BufIrq
end LiCan
