import Verif.Props.Sys
import Mathlib.Data.Fintype.Card
import Mathlib.Tactic.Ring
/-! # C86: which nodes keep answering at the same moment -/
namespace LiCan
namespace Slave

/-- `n` times `f` -/
def times {α : Type} (f : α → α) : Nat → α → α
  | 0, a => a
  | n + 1, a => times f n (f a)

/-- The delay before the answer to the `n`-th status request (counted from 0) of a node whose generator was
seeded with `v` (`li_can_slv_seeding`, io_can_sys.c:881-884, called by `can_sys_init`, io_can_sys.c:144, with the
serial number). -/
def delay (v n : Nat) : Nat := (rand (times (fun v => (rand v).1) n v)).2

private theorem delay_succ (v n : Nat) : delay v (n + 1) = delay (rand v).1 n := by
  unfold delay; rw [times]

private theorem low (x : Nat) : u32 (x * 65536) % 104 = x % 65536 * 2 % 13 * 8 := by
  have : u32 (x * 65536) = x % 65536 * 65536 := by unfold u32; omega
  generalize u32 (x * 65536) = z at *
  generalize x % 65536 = h at *
  omega

private theorem delay_eq_iff (x y : Nat) :
    u32 (x * 65536) % 104 = u32 (y * 65536) % 104 ↔ x % 65536 % 13 = y % 65536 % 13 := by
  rw [low, low]; omega

private def okd (d : Nat) : Bool :=
  let f := fun d => d * 20077 % 65536
  let g := fun d => d % 13 != 0 && d % 13 != 3
  g d || g (f d) || g (f (f d)) || g (f (f (f d))) || g (f (f (f (f d)))) || g (f (f (f (f (f d)))))

private theorem okd_all : ((List.range 256).all fun i => (List.range 256).all fun j =>
    okd (256 * i + j) || 256 * i + j == 0) = true := by decide +kernel

private theorem okd_of {d : Nat} (h : d < 65536) (h0 : d ≠ 0) : okd d = true := by
  have := okd_all
  rw [List.all_eq_true] at this
  have := this (d / 256) (List.mem_range.2 (by omega))
  rw [List.all_eq_true] at this
  have := this (d % 256) (List.mem_range.2 (by omega))
  rw [show 256 * (d / 256) + d % 256 = d by omega] at this
  simpa [h0] using this

private def dif (v w : Nat) : Nat := (w % 65536 + 65536 - v % 65536) % 65536

private theorem step_low (v : Nat) : (rand v).1 % 65536 = (v % 65536 * 20077 + 12345) % 65536 := by
  show u32 (v * 1103515245 + 12345) % 65536 = _
  unfold u32; omega

private theorem dif_step (v w : Nat) : dif (rand v).1 (rand w).1 = dif v w * 20077 % 65536 := by
  unfold dif
  rw [step_low, step_low]
  have h1 := Nat.mod_lt v (show 65536 > 0 by decide)
  have h2 := Nat.mod_lt w (show 65536 > 0 by decide)
  generalize v % 65536 = a at *
  generalize w % 65536 = b at *
  omega

private theorem mod13 (x y : Nat) (h : x % 65536 % 13 = y % 65536 % 13) : dif x y % 13 = 0 ∨ dif x y % 13 = 3 := by
  unfold dif
  have h1 := Nat.mod_lt x (show 65536 > 0 by decide)
  have h2 := Nat.mod_lt y (show 65536 > 0 by decide)
  generalize x % 65536 = a at *
  generalize y % 65536 = b at *
  by_cases hab : a ≤ b
  · left
    rw [show (b + 65536 - a) % 65536 = b - a by omega]
    omega
  · right
    rw [show (b + 65536 - a) % 65536 = b + 65536 - a by omega]
    omega

private theorem same_dif {v w : Nat} (h : (rand v).2 = (rand w).2) :
    dif (rand v).1 (rand w).1 % 13 = 0 ∨ dif (rand v).1 (rand w).1 % 13 = 3 := by
  have h' : (rand v).1 % 65536 % 13 = (rand w).1 % 65536 % 13 := (delay_eq_iff _ _).1 h
  exact mod13 _ _ h'

private theorem pow_s (n : Nat) : 20077 * 20077 ^ (n + 1) = 20077 ^ (n + 1 + 1) := (Nat.pow_succ').symm

private theorem mul_s (d k : Nat) :
    d * 20077 ^ (k + 1) % 65536 * 20077 % 65536 = d * 20077 ^ (k + 1 + 1) % 65536 := by
  have := Nat.mod_mul_mod (d * 20077 ^ (k + 1)) 20077 65536
  rw [this, Nat.mul_assoc, Nat.pow_succ 20077 (k + 1)]

private theorem okd_no {x : Nat} (hx : okd x = true) (d0 : x % 13 = 0 ∨ x % 13 = 3)
    (d1 : x * 20077 % 65536 % 13 = 0 ∨ x * 20077 % 65536 % 13 = 3)
    (d2 : x * 20077 % 65536 * 20077 % 65536 % 13 = 0 ∨ x * 20077 % 65536 * 20077 % 65536 % 13 = 3)
    (d3 : x * 20077 % 65536 * 20077 % 65536 * 20077 % 65536 % 13 = 0 ∨
      x * 20077 % 65536 * 20077 % 65536 * 20077 % 65536 % 13 = 3)
    (d4 : x * 20077 % 65536 * 20077 % 65536 * 20077 % 65536 * 20077 % 65536 % 13 = 0 ∨
      x * 20077 % 65536 * 20077 % 65536 * 20077 % 65536 * 20077 % 65536 % 13 = 3)
    (d5 : x * 20077 % 65536 * 20077 % 65536 * 20077 % 65536 * 20077 % 65536 * 20077 % 65536 % 13 = 0 ∨
      x * 20077 % 65536 * 20077 % 65536 * 20077 % 65536 * 20077 % 65536 * 20077 % 65536 % 13 = 3) : False := by
  simp only [okd, Bool.or_eq_true, Bool.and_eq_true, bne_iff_ne, ne_eq] at hx
  rcases hx with ((((hx | hx) | hx) | hx) | hx) | hx
  · exact d0.elim hx.1 hx.2
  · exact d1.elim hx.1 hx.2
  · exact d2.elim hx.1 hx.2
  · exact d3.elim hx.1 hx.2
  · exact d4.elim hx.1 hx.2
  · exact d5.elim hx.1 hx.2

private theorem okd_six (d : Nat) (h0 : d ≠ 0) (h : d < 65536) :
    ¬ ∀ n, n < 6 → (d * 20077 ^ (n + 1) % 65536 % 13 = 0 ∨ d * 20077 ^ (n + 1) % 65536 % 13 = 3) := by
  intro ha
  have hx0 : d * 20077 % 65536 ≠ 0 := by omega
  have hx := okd_of (Nat.mod_lt _ (by decide)) hx0
  have d0 := ha 0 (by decide)
  have d1 := ha 1 (by decide)
  have d2 := ha 2 (by decide)
  have d3 := ha 3 (by decide)
  have d4 := ha 4 (by decide)
  have d5 := ha 5 (by decide)
  rw [← mul_s] at d1
  rw [← mul_s, ← mul_s] at d2
  rw [← mul_s, ← mul_s, ← mul_s] at d3
  rw [← mul_s, ← mul_s, ← mul_s, ← mul_s] at d4
  rw [← mul_s, ← mul_s, ← mul_s, ← mul_s, ← mul_s] at d5
  rw [Nat.zero_add, Nat.pow_one] at d0 d1 d2 d3 d4 d5
  exact okd_no hx d0 d1 d2 d3 d4 d5

private theorem delay_dif (n : Nat) : ∀ {v w : Nat}, delay v n = delay w n →
    dif v w * 20077 ^ (n + 1) % 65536 % 13 = 0 ∨ dif v w * 20077 ^ (n + 1) % 65536 % 13 = 3 := by
  induction n with
  | zero =>
    intro v w h
    have := same_dif h
    rw [dif_step] at this
    rw [Nat.zero_add, Nat.pow_one]
    exact this
  | succ n ih =>
    intro v w h
    rw [delay_succ, delay_succ] at h
    have := ih h
    rw [dif_step, Nat.mod_mul_mod, Nat.mul_assoc, pow_s] at this
    exact this

private theorem delay_low (n : Nat) : ∀ {v w : Nat}, v % 65536 = w % 65536 → delay v n = delay w n := by
  induction n with
  | zero =>
    intro v w h
    have : (rand v).1 % 65536 = (rand w).1 % 65536 := by rw [step_low, step_low, h]
    exact (delay_eq_iff (rand v).1 (rand w).1).2 (by rw [this])
  | succ n ih =>
    intro v w h
    have : (rand v).1 % 65536 = (rand w).1 % 65536 := by rw [step_low, step_low, h]
    rw [delay_succ, delay_succ]
    exact ih this

/-- C86.  Two nodes wait equally long before every answer exactly if their serial numbers agree in the low 16
bits; otherwise the delays differ at least once within any six consecutive requests (`v`, `w` may be the
generator states at any moment). -/
theorem C86_same_delays_iff (v w : Nat) :
    ((∀ n, delay v n = delay w n) ↔ v % 65536 = w % 65536) ∧
    (v % 65536 ≠ w % 65536 → ∃ n, n < 6 ∧ delay v n ≠ delay w n) := by
  have key : v % 65536 ≠ w % 65536 → ∃ n, n < 6 ∧ delay v n ≠ delay w n := by
    intro h
    refine Decidable.byContradiction fun hc => ?_
    have hall : ∀ n, n < 6 → delay v n = delay w n := fun n hn =>
      Decidable.byContradiction fun h => hc ⟨n, hn, h⟩
    have h0 : dif v w ≠ 0 := by unfold dif; omega
    have hlt : dif v w < 65536 := by unfold dif; omega
    exact okd_six _ h0 hlt fun n hn => delay_dif n (hall n hn)
  refine ⟨⟨fun h => ?_, fun h n => delay_low n h⟩, key⟩
  refine Decidable.byContradiction fun hc => ?_
  obtain ⟨n, _, hn⟩ := key hc
  exact hn (h n)

/-- serial numbers whose first delays coincide, but not the second ones -/
example : delay 4711 0 = delay 4727 0 ∧ delay 4711 1 ≠ delay 4727 1 := by decide +kernel

/-- C86, the property does not hold for all nodes.  The nodes with the serial numbers 1 and 65537 (serial numbers
have 24 bits) wait equally long before every answer. -/
theorem C86_counterexample_serials : ∀ n, delay 1 n = delay 65537 n := fun n => delay_low n rfl

example : delay 1 0 ≠ delay 1 1 := by decide +kernel

private theorem u32_low (z : Nat) : u32 z % 65536 = z % 65536 := by unfold u32; omega

private theorem expand (a p q v : Nat) : p * a * v + 12345 * (q + p) = p * (v * a + 12345) + 12345 * q := by ring

private theorem mod_congr (p r : Nat) {x y : Nat} (h : x % 65536 = y % 65536) : (p * x + r) % 65536 = (p * y + r) % 65536 := by
  rw [Nat.add_mod, Nat.mul_mod, h, ← Nat.mul_mod, ← Nat.add_mod]

/-- **C86**, the delays as a formula: with `a = 1103515245`, before the `n`-th answer of a node with serial number `v`
the generator holds `aⁿ⁺¹ v + 12345 (1 + a + … + aⁿ)`; the delay is twice its lower half, modulo 13, times 8. -/
theorem C86_closed_form (v n : Nat) :
    delay v n = 8 * (2 * ((1103515245 ^ (n + 1) * v + 12345 * ((List.range (n + 1)).map (1103515245 ^ ·)).sum) % 65536) % 13) := by
  have key : ∀ n v, delay v n =
      8 * (2 * ((1103515245 ^ (n + 1) * v + 12345 * ((List.range (n + 1)).map (1103515245 ^ ·)).sum) % 65536) % 13) := by
    intro n
    induction n with
    | zero =>
      intro v
      show u32 (u32 (v * 1103515245 + 12345) * 65536) % 104 = _
      rw [low, u32_low]
      simp only [Nat.zero_add, List.range_one, List.map_cons, List.map_nil, List.sum_cons, List.sum_nil, Nat.pow_zero, Nat.pow_one,
        Nat.add_zero, Nat.mul_one]
      rw [Nat.mul_comm v]
      generalize (1103515245 * v + 12345) % 65536 = z
      omega
    | succ n ih =>
      intro v
      rw [delay_succ, ih]
      have e : (1103515245 ^ (n + 1) * (rand v).1 + 12345 * ((List.range (n + 1)).map (1103515245 ^ ·)).sum) % 65536 =
          (1103515245 ^ (n + 1 + 1) * v + 12345 * ((List.range (n + 1 + 1)).map (1103515245 ^ ·)).sum) % 65536 := by
        rw [List.range_succ (n := n + 1), List.map_append, List.sum_append]
        simp only [List.map_cons, List.map_nil, List.sum_cons, List.sum_nil, Nat.add_zero]
        generalize ((List.range (n + 1)).map (1103515245 ^ ·)).sum = q
        rw [Nat.pow_succ _ (n + 1), expand]
        exact mod_congr _ _ (u32_low _)
      rw [e]
  exact key n v

/-- **C86**, the values: a delay is one of the thirteen multiples of 8 from 0 to 96. -/
theorem C86_thirteen_values (v n : Nat) : ∃ k, k < 13 ∧ delay v n = 8 * k :=
  ⟨_, Nat.mod_lt _ (by decide), C86_closed_form v n⟩

/-- **C86**, crowds: of any fourteen nodes two answer any given status request at the same moment, whatever their serial
numbers. -/
theorem C86_fourteen_nodes_collide (v : Fin 14 → Nat) (n : Nat) : ∃ i j, i ≠ j ∧ delay (v i) n = delay (v j) n := by
  obtain ⟨i, -, j, -, h1, h2⟩ := Finset.exists_ne_map_eq_of_card_lt_of_maps_to (s := Finset.univ (α := Fin 14))
    (t := (Finset.range 13).image (8 * ·)) (f := fun i => delay (v i) n)
    (by
      refine Nat.lt_of_le_of_lt Finset.card_image_le ?_
      rw [Finset.card_range, Finset.card_univ, Fintype.card_fin]; decide)
    (fun i _ => by
      obtain ⟨k, hk, e⟩ := C86_thirteen_values (v i) n
      exact Finset.mem_coe.2 (Finset.mem_image.2 ⟨k, Finset.mem_range.2 hk, e.symm⟩))
  exact ⟨i, j, h1, h2⟩

/-- thirteen nodes need not collide -/
example : ([0, 1, 2, 3, 4, 5, 6, 7, 8, 10, 11, 13, 14].map fun v => delay v 0).Nodup := by decide +kernel

end Slave
end LiCan
