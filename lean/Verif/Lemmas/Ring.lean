/-! # Modular index arithmetic for ring buffers (proof helpers) -/
namespace LiCan

theorem mod_inj_of_lt {sz a i j : Nat} (hi : i < sz) (hj : j < sz)
    (h : (a + i) % sz = (a + j) % sz) : i = j := by
  have hz : 0 < sz := by omega
  have h1 := Nat.div_add_mod (a + i) sz
  have h2 := Nat.div_add_mod (a + j) sz
  rw [h] at h1
  generalize (a + i) / sz = x at *
  generalize (a + j) / sz = y at *
  generalize (a + j) % sz = r at *
  rcases Nat.lt_trichotomy x y with hxy | hxy | hxy
  · have : sz * x + sz ≤ sz * y := by
      have := Nat.mul_le_mul_left sz (Nat.succ_le_of_lt hxy); rw [Nat.mul_succ] at this; exact this
    omega
  · subst hxy; omega
  · have : sz * y + sz ≤ sz * x := by
      have := Nat.mul_le_mul_left sz (Nat.succ_le_of_lt hxy); rw [Nat.mul_succ] at this; exact this
    omega

/-- `(r + n) % B` written without `%`, when `r < B`, `n ≤ B`. -/
theorem mod_cases {B r n : Nat} (hr : r < B) (hn : n ≤ B) :
    (r + n) % B = if r + n < B then r + n else r + n - B := by
  split
  · exact Nat.mod_eq_of_lt ‹_›
  · rw [Nat.mod_eq_sub_mod (by omega), Nat.mod_eq_of_lt (by omega)]

end LiCan
