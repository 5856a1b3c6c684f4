import Verif.Model.Conv
import Verif.Spec.Conv
/-! # Lemmas about the conversions -/
namespace LiCan
namespace AppConv

theorem rd8_at (s0 : List Byte) (x : Byte) (s1 : List Byte) : rd8 (s0 ++ x :: s1) s0.length = some x := by
  simp [rd8]

theorem wr8_at (s0 : List Byte) (x v : Byte) (s1 : List Byte) :
    wr8 (s0 ++ x :: s1) s0.length v = some (s0 ++ v :: s1) := by
  simp [wr8, List.set_append]

theorem rd8_at' (s0 : List Byte) (x y : Byte) (s1 : List Byte) :
    rd8 (s0 ++ x :: y :: s1) (s0.length + 1) = some y := by
  have := rd8_at (s0 ++ [x]) y s1
  simpa using this

theorem wr8_at' (s0 : List Byte) (x y v : Byte) (s1 : List Byte) :
    wr8 (s0 ++ x :: y :: s1) (s0.length + 1) v = some (s0 ++ x :: v :: s1) := by
  have := wr8_at (s0 ++ [x]) y v s1
  simpa using this

/-- the word of two bytes in memory -/
def val16 (le : Bool) (x y : Byte) : BitVec 16 := if le then y.toBitVec ++ x.toBitVec else x.toBitVec ++ y.toBitVec

theorem rd16_at (le : Bool) (s0 : List Byte) (x y : Byte) (s1 : List Byte) :
    rd16 le (s0 ++ x :: y :: s1) s0.length = some (val16 le x y) := by
  unfold rd16
  rw [rd8_at, rd8_at']
  rfl

theorem app8 (x y : BitVec 8) (i : Nat) :
    BitVec.getLsbD (w := 16) (x ++ y) i = if i < 8 then y.getLsbD i else x.getLsbD (i - 8) := BitVec.getLsbD_append
theorem app16 (x y : BitVec 16) (i : Nat) :
    BitVec.getLsbD (w := 32) (x ++ y) i = if i < 16 then y.getLsbD i else x.getLsbD (i - 16) := BitVec.getLsbD_append

theorem hi8 (x y : BitVec 8) : (x ++ y).extractLsb' 8 8 = x := by
  apply BitVec.eq_of_getLsbD_eq
  intro i hi
  rw [BitVec.getLsbD_extractLsb', app8]
  simp [hi]
theorem lo8 (x y : BitVec 8) : (x ++ y).extractLsb' 0 8 = y := by
  apply BitVec.eq_of_getLsbD_eq
  intro i hi
  rw [BitVec.getLsbD_extractLsb', app8]
  simp [hi]
theorem hi16 (x y : BitVec 16) : (x ++ y).extractLsb' 16 16 = x := by
  apply BitVec.eq_of_getLsbD_eq
  intro i hi
  rw [BitVec.getLsbD_extractLsb', app16]
  simp [hi]
theorem lo16 (x y : BitVec 16) : (x ++ y).extractLsb' 0 16 = y := by
  apply BitVec.eq_of_getLsbD_eq
  intro i hi
  rw [BitVec.getLsbD_extractLsb', app16]
  simp [hi]

theorem wr16_at (le : Bool) (s0 : List Byte) (x y u v : Byte) (s1 : List Byte) :
    wr16 le (s0 ++ x :: y :: s1) s0.length (val16 le u v) = some (s0 ++ u :: v :: s1) := by
  cases le
  · simp [wr16, val16, hi8, lo8, wr8_at, wr8_at']
  · simp [wr16, val16, hi8, lo8, wr8_at, wr8_at']

theorem rotl16_app (x y : BitVec 8) : rotl16 (x ++ y) = y ++ x := by
  unfold rotl16
  apply BitVec.eq_of_getLsbD_eq
  intro i hi
  rw [BitVec.getLsbD_or, BitVec.getLsbD_shiftLeft, BitVec.getLsbD_ushiftRight, app8, app8, app8]
  by_cases h : i < 8
  · have h1 : ¬ 8 + i < 8 := by omega
    simp only [h, h1, if_true, if_false, decide_true, Bool.not_true, Bool.and_false, Bool.false_and, Bool.false_or]
    congr 1; omega
  · have h1 : ¬ 8 + i < 8 := by omega
    have h2 : i - 8 < 8 := by omega
    have h3 : x.getLsbD (8 + i - 8) = false := BitVec.getLsbD_of_ge _ _ (by omega)
    simp only [h, h1, h2, h3, hi, if_true, if_false, decide_true, decide_false, Bool.not_false, Bool.and_true, Bool.true_and, Bool.or_false]

theorem rotl32_app (x y : BitVec 16) : rotl32 (x ++ y) = y ++ x := by
  unfold rotl32
  apply BitVec.eq_of_getLsbD_eq
  intro i hi
  rw [BitVec.getLsbD_or, BitVec.getLsbD_shiftLeft, BitVec.getLsbD_ushiftRight, app16, app16, app16]
  by_cases h : i < 16
  · have h1 : ¬ 16 + i < 16 := by omega
    simp only [h, h1, if_true, if_false, decide_true, Bool.not_true, Bool.and_false, Bool.false_and, Bool.false_or]
    congr 1; omega
  · have h1 : ¬ 16 + i < 16 := by omega
    have h2 : i - 16 < 16 := by omega
    have h3 : x.getLsbD (16 + i - 16) = false := BitVec.getLsbD_of_ge _ _ (by omega)
    simp only [h, h1, h2, h3, hi, if_true, if_false, decide_true, decide_false, Bool.not_false, Bool.and_true, Bool.true_and, Bool.or_false]

/-- The bytes a 16-bit loop writes for the bytes it reads. -/
def pairs (g : Byte → Byte → Byte × Byte) : List Byte → List Byte
  | x :: y :: r => (g x y).1 :: (g x y).2 :: pairs g r
  | _ => []

theorem words_spec {f : BitVec 16 → BitVec 16} {le : Bool} {g : Byte → Byte → Byte × Byte}
    (hf : ∀ x y, f (val16 le x y) = val16 le (g x y).1 (g x y).2) (n : Nat) :
    ∀ (s0 xs s1 d0 ys d1 : List Byte), d0.length = s0.length → xs.length = 2 * n → ys.length = 2 * n →
      words f le (s0 ++ xs ++ s1) n s0.length (d0 ++ ys ++ d1) = some (d0 ++ pairs g xs ++ d1) := by
  induction n with
  | zero =>
    intro s0 xs s1 d0 ys d1 _ h2 h3
    rw [List.length_eq_zero_iff.1 (show xs.length = 0 by omega), List.length_eq_zero_iff.1 (show ys.length = 0 by omega)]
    rfl
  | succ n ih =>
    intro s0 xs s1 d0 ys d1 h1 h2 h3
    match xs, h2, ys, h3 with
    | x :: y :: xs, h2, u :: v :: ys, h3 =>
      have e1 : s0 ++ x :: y :: xs ++ s1 = s0 ++ x :: y :: (xs ++ s1) := by simp
      have e2 : d0 ++ u :: v :: ys ++ d1 = d0 ++ u :: v :: (ys ++ d1) := by simp
      have hw := wr16_at le d0 u v (g x y).1 (g x y).2 (ys ++ d1)
      rw [h1] at hw
      rw [words, e1, rd16_at, e2, Option.bind_some, hf, hw, Option.bind_some]
      have := ih (s0 ++ [x, y]) xs s1 (d0 ++ [(g x y).1, (g x y).2]) ys d1 (by simp [h1]) (by simp at h2; omega)
        (by simp at h3; omega)
      simp only [List.length_append, List.length_cons, List.length_nil, List.append_assoc, List.cons_append,
        List.nil_append, Nat.zero_add] at this
      rw [this]
      simp [pairs]
    | [_], h2, _, _ => simp at h2; omega
    | _, _, [_], h3 => simp at h3; omega
    | [], h2, _, _ => simp at h2
    | _, _, [], h3 => simp at h3

/-- on a little endian platform the rotation exchanges the bytes -/
theorem rot_val16 (x y : Byte) : rotl16 (val16 true x y) = val16 true y x := rotl16_app _ _

theorem swap16_spec (n : Nat) : ∀ (s0 xs s1 : List Byte), xs.length = 2 * n →
    swap16 true n s0.length (s0 ++ xs ++ s1) = some (s0 ++ pairs (fun x y => (y, x)) xs ++ s1) := by
  induction n with
  | zero =>
    intro s0 xs s1 h2
    rw [List.length_eq_zero_iff.1 (show xs.length = 0 by omega)]
    rfl
  | succ n ih =>
    intro s0 xs s1 h2
    match xs, h2 with
    | x :: y :: xs, h2 =>
      have e1 : s0 ++ x :: y :: xs ++ s1 = s0 ++ x :: y :: (xs ++ s1) := by simp
      rw [swap16, e1, rd16_at, Option.bind_some, rot_val16, wr16_at, Option.bind_some]
      have := ih (s0 ++ [y, x]) xs s1 (by simp at h2; omega)
      simp only [List.length_append, List.length_cons, List.length_nil, List.append_assoc, List.cons_append,
        List.nil_append, Nat.zero_add] at this
      rw [this]
      simp [pairs]
    | [_], h2 => simp at h2; omega
    | [], h2 => simp at h2

/-- the 32-bit word of four bytes in memory -/
def val32 (le : Bool) (a b c d : Byte) : BitVec 32 :=
  if le then val16 le c d ++ val16 le a b else val16 le a b ++ val16 le c d

theorem rd32_at (le : Bool) (s0 : List Byte) (a b c d : Byte) (s1 : List Byte) :
    rd32 le (s0 ++ a :: b :: c :: d :: s1) s0.length = some (val32 le a b c d) := by
  have h := rd16_at le (s0 ++ [a, b]) c d s1
  simp only [List.length_append, List.length_cons, List.length_nil, List.append_assoc, List.cons_append,
        List.nil_append, Nat.zero_add] at h
  unfold rd32
  rw [rd16_at, h]
  rfl

theorem wr32_at (le : Bool) (s0 : List Byte) (a b c d a' b' c' d' : Byte) (s1 : List Byte) :
    wr32 le (s0 ++ a :: b :: c :: d :: s1) s0.length (val32 le a' b' c' d') =
      some (s0 ++ a' :: b' :: c' :: d' :: s1) := by
  have h := wr16_at le (s0 ++ [a', b']) c d c' d' s1
  have h' := wr16_at le s0 a b a' b' (c :: d :: s1)
  simp only [List.length_append, List.length_cons, List.length_nil, List.append_assoc, List.cons_append,
        List.nil_append, Nat.zero_add] at h
  cases le
  · simp only [wr32, val32, Bool.false_eq_true, if_false, hi16, lo16, h', Option.bind_some, h]
  · simp only [wr32, val32, if_true, hi16, lo16, h', Option.bind_some, h]

/-- The bytes a 32-bit loop writes for the bytes it reads. -/
def quads (g : Byte → Byte → Byte → Byte → List Byte) : List Byte → List Byte
  | a :: b :: c :: d :: r => g a b c d ++ quads g r
  | _ => []

theorem dwords_spec {f : BitVec 32 → BitVec 32} {le : Bool} {g1 g2 g3 g4 : Byte → Byte → Byte → Byte → Byte}
    (hf : ∀ a b c d, f (val32 le a b c d) = val32 le (g1 a b c d) (g2 a b c d) (g3 a b c d) (g4 a b c d)) (n : Nat) :
    ∀ (s0 xs s1 d0 ys d1 : List Byte), d0.length = s0.length → xs.length = 4 * n → ys.length = 4 * n →
      dwords f le (s0 ++ xs ++ s1) n s0.length (d0 ++ ys ++ d1) =
        some (d0 ++ quads (fun a b c d => [g1 a b c d, g2 a b c d, g3 a b c d, g4 a b c d]) xs ++ d1) := by
  induction n with
  | zero =>
    intro s0 xs s1 d0 ys d1 _ h2 h3
    rw [List.length_eq_zero_iff.1 (show xs.length = 0 by omega), List.length_eq_zero_iff.1 (show ys.length = 0 by omega)]
    rfl
  | succ n ih =>
    intro s0 xs s1 d0 ys d1 h1 h2 h3
    match xs, h2, ys, h3 with
    | a :: b :: c :: d :: xs, h2, p :: q :: u :: v :: ys, h3 =>
      have e1 : s0 ++ a :: b :: c :: d :: xs ++ s1 = s0 ++ a :: b :: c :: d :: (xs ++ s1) := by simp
      have e2 : d0 ++ p :: q :: u :: v :: ys ++ d1 = d0 ++ p :: q :: u :: v :: (ys ++ d1) := by simp
      have hw := wr32_at le d0 p q u v (g1 a b c d) (g2 a b c d) (g3 a b c d) (g4 a b c d) (ys ++ d1)
      rw [h1] at hw
      rw [dwords, e1, rd32_at, e2, Option.bind_some, hf, hw, Option.bind_some]
      have := ih (s0 ++ [a, b, c, d]) xs s1 (d0 ++ [g1 a b c d, g2 a b c d, g3 a b c d, g4 a b c d]) ys d1
        (by simp [h1]) (by simp at h2; omega) (by simp at h3; omega)
      simp only [List.length_append, List.length_cons, List.length_nil, List.append_assoc, List.cons_append,
        List.nil_append, Nat.zero_add] at this
      rw [this]
      simp [quads]
    | [], h2, _, _ => simp at h2
    | [_], h2, _, _ => simp at h2; omega
    | [_, _], h2, _, _ => simp at h2; omega
    | [_, _, _], h2, _, _ => simp at h2; omega
    | _, _, [], h3 => simp at h3
    | _, _, [_], h3 => simp at h3; omega
    | _, _, [_, _], h3 => simp at h3; omega
    | _, _, [_, _, _], h3 => simp at h3; omega

theorem rot_val32 (a b c d : Byte) : rotl32 (val32 true a b c d) = val32 true c d a b := rotl32_app _ _

theorem swap32_spec (n : Nat) : ∀ (s0 xs s1 : List Byte), xs.length = 4 * n →
    swap32 true n s0.length (s0 ++ xs ++ s1) = some (s0 ++ quads (fun a b c d => [c, d, a, b]) xs ++ s1) := by
  induction n with
  | zero =>
    intro s0 xs s1 h2
    rw [List.length_eq_zero_iff.1 (show xs.length = 0 by omega)]
    rfl
  | succ n ih =>
    intro s0 xs s1 h2
    match xs, h2 with
    | a :: b :: c :: d :: xs, h2 =>
      have e1 : s0 ++ a :: b :: c :: d :: xs ++ s1 = s0 ++ a :: b :: c :: d :: (xs ++ s1) := by simp
      rw [swap32, e1, rd32_at, Option.bind_some, rot_val32, wr32_at, Option.bind_some]
      have := ih (s0 ++ [c, d, a, b]) xs s1 (by simp at h2; omega)
      simp only [List.length_append, List.length_cons, List.length_nil, List.append_assoc, List.cons_append,
        List.nil_append, Nat.zero_add] at this
      rw [this]
      simp [quads]
    | [], h2 => simp at h2
    | [_], h2 => simp at h2; omega
    | [_, _], h2 => simp at h2; omega
    | [_, _, _], h2 => simp at h2; omega

theorem copyUp_spec (n : Nat) : ∀ (s0 xs s1 d0 ys d1 : List Byte), d0.length = s0.length → xs.length = n → ys.length = n →
    copyUp (s0 ++ xs ++ s1) n s0.length d0.length (d0 ++ ys ++ d1) = some (d0 ++ xs ++ d1) := by
  induction n with
  | zero =>
    intro s0 xs s1 d0 ys d1 _ h2 h3
    rw [List.length_eq_zero_iff.1 h2, List.length_eq_zero_iff.1 h3]
    rfl
  | succ n ih =>
    intro s0 xs s1 d0 ys d1 h1 h2 h3
    match xs, h2, ys, h3 with
    | x :: xs, h2, u :: ys, h3 =>
      have e1 : s0 ++ x :: xs ++ s1 = s0 ++ x :: (xs ++ s1) := by simp
      have e2 : d0 ++ u :: ys ++ d1 = d0 ++ u :: (ys ++ d1) := by simp
      rw [copyUp, e1, rd8_at, e2, Option.bind_some, wr8_at, Option.bind_some]
      have := ih (s0 ++ [x]) xs s1 (d0 ++ [x]) ys d1 (by simp [h1]) (by simpa using h2) (by simpa using h3)
      simp only [List.length_append, List.length_cons, List.length_nil, List.append_assoc, List.cons_append,
        List.nil_append, Nat.zero_add] at this
      rw [this]
      simp

theorem copyDown_spec (n : Nat) : ∀ (s0 xs s1 ys d1 : List Byte), xs.length = n → ys.length = n →
    copyDown (s0 ++ xs ++ s1) n s0.length (ys ++ d1) = some (xs.reverse ++ d1) := by
  induction n with
  | zero =>
    intro s0 xs s1 ys d1 h2 h3
    rw [List.length_eq_zero_iff.1 h2, List.length_eq_zero_iff.1 h3]
    rfl
  | succ n ih =>
    intro s0 xs s1 ys d1 h2 h3
    match xs, h2 with
    | x :: xs, h2 =>
      obtain ⟨ys', u, rfl⟩ : ∃ a b, ys = a ++ [b] := by
        have hne : ys ≠ [] := by intro h; simp [h] at h3
        exact ⟨ys.dropLast, ys.getLast hne, (List.dropLast_concat_getLast hne).symm⟩
      have hl : ys'.length = n := by simp at h3; omega
      have e1 : s0 ++ x :: xs ++ s1 = s0 ++ x :: (xs ++ s1) := by simp
      have e2 : ys' ++ [u] ++ d1 = ys' ++ u :: d1 := by simp
      have hw := wr8_at ys' u x d1
      rw [hl] at hw
      rw [copyDown, e1, rd8_at, e2, Option.bind_some, hw, Option.bind_some]
      have := ih (s0 ++ [x]) xs s1 ys' (x :: d1) (by simpa using h2) hl
      simp only [List.length_append, List.length_cons, List.length_nil, List.append_assoc, List.cons_append,
        List.nil_append, Nat.zero_add] at this
      rw [this]
      simp

end AppConv
end LiCan
