import Verif.Lemmas.Conv
/-! # C87 - C89: conversions between application data and CAN data -/
namespace LiCan
namespace AppConv
open Spec (be native)

theorem be_length (n : Nat) : ∀ v, (be n v).length = n := by
  induction n with
  | zero => intro v; rfl
  | succ n ih => intro v; simp [be, ih]

theorem native_length (le : Bool) (n v : Nat) : (native le n v).length = n := by
  unfold native; split <;> simp [be_length]

theorem flat_length (f : Nat → List Byte) (n : Nat) (h : ∀ v, (f v).length = n) (vs : List Nat) :
    (vs.flatMap f).length = n * vs.length := by
  induction vs with
  | nil => simp
  | cons v vs ih => simp [ih, h, Nat.mul_succ]; omega

theorem be2 (v : Nat) : be 2 v = [UInt8.ofNat (v / 256), UInt8.ofNat v] := rfl
theorem be4 (v : Nat) : be 4 v =
    [UInt8.ofNat (v / 256 / 256 / 256), UInt8.ofNat (v / 256 / 256), UInt8.ofNat (v / 256), UInt8.ofNat v] := rfl

/-- The number a list of bytes denotes, most significant byte first: `be` loses nothing. -/
theorem be_val (n : Nat) : ∀ v, (be n v).foldl (fun a b => 256 * a + b.toNat) 0 = v % 256 ^ n := by
  induction n with
  | zero => intro v; simp [be, Nat.mod_one]
  | succ n ih =>
    intro v
    rw [be, List.foldl_append, ih]
    simp only [List.foldl_cons, List.foldl_nil, UInt8.toNat_ofNat']
    rw [show 256 ^ (n + 1) = 256 * 256 ^ n from Nat.pow_succ', Nat.mod_mul]
    omega

private theorem pairs_16 (le : Bool) (vs : List Nat) :
    pairs (fun x y => if le then (y, x) else (x, y)) (vs.flatMap (native le 2)) = vs.flatMap (be 2) ∧
    pairs (fun x y => if le then (y, x) else (x, y)) (vs.flatMap (be 2)) = vs.flatMap (native le 2) := by
  induction vs with
  | nil => exact ⟨rfl, rfl⟩
  | cons v vs ih =>
    simp only [List.flatMap_cons]
    cases le
    · constructor
      · rw [← ih.1]; rfl
      · rw [← ih.2]; rfl
    · constructor
      · rw [← ih.1]; rfl
      · rw [← ih.2]; rfl

private theorem sw16_val (le : Bool) (x y : Byte) :
    sw16 le (val16 le x y) = val16 le (if le then (y, x) else (x, y)).1 (if le then (y, x) else (x, y)).2 := by
  cases le
  · rfl
  · exact rot_val16 x y

private theorem conv16 (le : Bool) (xs r ys d : List Byte) (n : Nat) (hx : xs.length = 2 * n) (hy : ys.length = 2 * n) :
    words (sw16 le) le (xs ++ r) n 0 (ys ++ d) =
      some (pairs (fun x y => if le then (y, x) else (x, y)) xs ++ d) := by
  have := words_spec (f := sw16 le) (le := le) (sw16_val le) n [] xs r [] ys d rfl hx hy
  simpa using this

/-- C87, 16-bit values.  For a platform of either byte order and values `vs`: what `app_convc_tx_uint16` puts on the
wire is the values with the most significant byte first, and `app_convc_main_rx_uint16` and
`app_convc_mon_rx_uint16` store them as the platform stores numbers.  Nothing else is touched (`d`). -/
theorem C87_uint16 (le : Bool) (vs : List Nat) (dlc : Nat) (hd : dlc / 2 = vs.length) (r ys d : List Byte)
    (hy : ys.length = 2 * vs.length) :
    txU16 le (vs.flatMap (native le 2) ++ r) dlc (ys ++ d) = some (vs.flatMap (be 2) ++ d) ∧
    rxU16 le (vs.flatMap (be 2) ++ r) dlc (ys ++ d) = some (vs.flatMap (native le 2) ++ d) := by
  unfold txU16 rxU16
  rw [hd, conv16 le _ _ _ _ _ (flat_length _ _ (native_length le 2) vs) hy,
    conv16 le _ _ _ _ _ (flat_length _ _ (be_length 2) vs) hy, (pairs_16 le vs).1, (pairs_16 le vs).2]
  exact ⟨rfl, rfl⟩

/-- two values, little endian: 0x1234 and 0x00FF -/
example : txU16 true [0x34, 0x12, 0xFF, 0x00, 9, 9, 9, 9] 4 [7, 7, 7, 7, 7, 7, 7, 7] =
    some [0x12, 0x34, 0x00, 0xFF, 7, 7, 7, 7] := by decide +kernel

/-- C87.  A value set on a platform of one byte order arrives on a platform of the other. -/
theorem C87_uint16_round_trip (p q : Bool) (vs : List Nat) (dlc : Nat) (hd : dlc / 2 = vs.length)
    (r can can' app app' : List Byte) (hc : can.length = 2 * vs.length) (ha : app.length = 2 * vs.length) :
    ((txU16 p (vs.flatMap (native p 2) ++ r) dlc (can ++ can')).bind fun w => rxU16 q w dlc (app ++ app')) =
      some (vs.flatMap (native q 2) ++ app') := by
  rw [(C87_uint16 p vs dlc hd r can can' hc).1, Option.bind_some, (C87_uint16 q vs dlc hd can' app app' ha).2]

private theorem quads_rev (vs : List Nat) :
    quads (fun a b c d => [c, d, a, b]) (pairs (fun x y => (y, x)) (vs.flatMap (native true 4))) = vs.flatMap (be 4) ∧
    quads (fun a b c d => [c, d, a, b]) (pairs (fun x y => (y, x)) (vs.flatMap (be 4))) = vs.flatMap (native true 4) := by
  induction vs with
  | nil => exact ⟨rfl, rfl⟩
  | cons v vs ih =>
    simp only [List.flatMap_cons]
    constructor
    · rw [← ih.1]; rfl
    · rw [← ih.2]; rfl

private theorem pairs_length (g : Byte → Byte → Byte × Byte) (n : Nat) : ∀ xs : List Byte, xs.length = 2 * n →
    (pairs g xs).length = 2 * n := by
  induction n with
  | zero => intro xs h; rw [List.length_eq_zero_iff.1 (show xs.length = 0 by omega)]; rfl
  | succ n ih =>
    intro xs h
    match xs, h with
    | x :: y :: xs, h =>
      simp only [List.length_cons] at h
      simp only [pairs, List.length_cons, ih xs (by omega)]; omega
    | [_], h => simp at h; omega
    | [], h => simp at h

private theorem quads_id (n : Nat) : ∀ xs : List Byte, xs.length = 4 * n → quads (fun a b c d => [a, b, c, d]) xs = xs := by
  induction n with
  | zero => intro xs h; rw [List.length_eq_zero_iff.1 (show xs.length = 0 by omega)]; rfl
  | succ n ih =>
    intro xs h
    match xs, h with
    | a :: b :: c :: d :: xs, h =>
      simp only [List.length_cons] at h
      simp only [quads, ih xs (by omega), List.cons_append, List.nil_append]
    | [], h => simp at h
    | [_], h => simp at h; omega
    | [_, _], h => simp at h; omega
    | [_, _, _], h => simp at h; omega

private theorem pairs_id (n : Nat) : ∀ xs : List Byte, xs.length = 2 * n → pairs (fun x y => (x, y)) xs = xs := by
  induction n with
  | zero => intro xs h; rw [List.length_eq_zero_iff.1 (show xs.length = 0 by omega)]; rfl
  | succ n ih =>
    intro xs h
    match xs, h with
    | a :: b :: xs, h =>
      simp only [List.length_cons] at h
      simp only [pairs, ih xs (by omega)]
    | [], h => simp at h
    | [_], h => simp at h; omega

/-- C87, 32-bit values. -/
theorem C87_uint32 (le : Bool) (vs : List Nat) (dlc : Nat) (hd : dlc / 4 = vs.length) (r ys d : List Byte)
    (hy : ys.length = 4 * vs.length) :
    txU32 le (vs.flatMap (native le 4) ++ r) dlc (ys ++ d) = some (vs.flatMap (be 4) ++ d) ∧
    (rxU32 le (vs.flatMap (be 4) ++ r) dlc (ys ++ d)).map Prod.snd = some (vs.flatMap (native le 4) ++ d) := by
  have l1 := flat_length _ _ (native_length le 4) vs
  have l2 := flat_length _ _ (be_length 4) vs
  unfold txU32 rxU32
  rw [hd, conv16 le _ _ _ _ _ (by omega) (by omega), Option.bind_some]
  cases le
  · simp only [Bool.false_eq_true, if_false, Option.bind_some]
    have h3 := dwords_spec (f := id) (le := false) (g1 := fun a _ _ _ => a) (g2 := fun _ b _ _ => b)
      (g3 := fun _ _ c _ => c) (g4 := fun _ _ _ d => d) (fun _ _ _ _ => rfl) vs.length [] _ r [] ys d rfl l2 hy
    simp only [List.nil_append, List.length_nil] at h3
    rw [h3, quads_id _ _ l2, pairs_id _ _ (by rw [l1, show 4 * vs.length = 2 * (2 * vs.length) by omega])]
    exact ⟨rfl, rfl⟩
  · simp only [if_true]
    have h1 := swap32_spec vs.length [] (pairs (fun x y => (y, x)) (vs.flatMap (native true 4))) d
      (by rw [pairs_length _ (2 * vs.length) _ (by omega)]; omega)
    have h2 := swap16_spec (2 * vs.length) [] (vs.flatMap (be 4)) r (by omega)
    have h3 := dwords_spec (f := rotl32) (le := true) (g1 := fun _ _ c _ => c) (g2 := fun _ _ _ d => d)
      (g3 := fun a _ _ _ => a) (g4 := fun _ b _ _ => b) rot_val32 vs.length []
      (pairs (fun x y => (y, x)) (vs.flatMap (be 4))) r [] ys d rfl
      (by rw [pairs_length _ (2 * vs.length) _ (by omega)]; omega) hy
    simp only [List.nil_append, List.length_nil] at h1 h2 h3
    rw [h1, h2, Option.bind_some, h3, (quads_rev vs).1, (quads_rev vs).2]
    exact ⟨rfl, rfl⟩

example : txU32 true [0x78, 0x56, 0x34, 0x12] 4 [7, 7, 7, 7, 7, 7, 7, 7] = some [0x12, 0x34, 0x56, 0x78, 7, 7, 7, 7] ∧
    (rxU32 true [0x12, 0x34, 0x56, 0x78] 4 [0, 0, 0, 0]).map Prod.snd = some [0x78, 0x56, 0x34, 0x12] := by decide +kernel

/-- C87.  A 32-bit value set on a platform of one byte order arrives on a platform of the other. -/
theorem C87_uint32_round_trip (p q : Bool) (vs : List Nat) (dlc : Nat) (hd : dlc / 4 = vs.length)
    (r can can' app app' : List Byte) (hc : can.length = 4 * vs.length) (ha : app.length = 4 * vs.length) :
    ((txU32 p (vs.flatMap (native p 4) ++ r) dlc (can ++ can')).bind fun w =>
      (rxU32 q w dlc (app ++ app')).map Prod.snd) = some (vs.flatMap (native q 4) ++ app') := by
  rw [(C87_uint32 p vs dlc hd r can can' hc).1, Option.bind_some, (C87_uint32 q vs dlc hd can' app app' ha).2]

/-- C87, bit fields.  One number of `dlc` bytes: on the wire it has its least significant byte first, whatever the
platform. -/
theorem C87_bits (le : Bool) (v dlc : Nat) (r ys d : List Byte) (hy : ys.length = dlc) :
    txBit le (native le dlc v ++ r) dlc (ys ++ d) = some (native true dlc v ++ d) ∧
    rxBit le (native true dlc v ++ r) dlc (ys ++ d) = some (native le dlc v ++ d) := by
  unfold txBit rxBit
  cases le
  · have h1 := copyDown_spec dlc [] (native false dlc v) r ys d (native_length _ _ _) hy
    have h2 := copyDown_spec dlc [] (native true dlc v) r ys d (native_length _ _ _) hy
    simp only [List.nil_append, List.length_nil] at h1 h2
    simp only [Bool.false_eq_true, if_false]
    rw [h1, h2]
    simp [native]
  · have h1 := copyUp_spec dlc [] (native true dlc v) r [] ys d rfl (native_length _ _ _) hy
    simp only [List.nil_append, List.length_nil] at h1
    simp only [if_true]
    exact ⟨h1, h1⟩

example : txBit false [0x01, 0x02, 0x03] 3 [7, 7, 7, 7] = some [0x03, 0x02, 0x01, 7] := by decide +kernel

/-- C87, nibbles.  An even number of bytes is copied as it is. -/
theorem C87_nibbles (le : Bool) (xs r ys d : List Byte) (dlc : Nat) (hx : xs.length = 2 * (dlc / 2))
    (hy : ys.length = 2 * (dlc / 2)) :
    txNibble le (xs ++ r) dlc (ys ++ d) = some (xs ++ d) ∧ rxNibble le (xs ++ r) dlc (ys ++ d) = some (xs ++ d) := by
  have h := words_spec (f := id) (le := le) (g := fun x y => (x, y)) (fun _ _ => rfl) (dlc / 2) [] xs r [] ys d rfl hx hy
  simp only [List.nil_append, List.length_nil, pairs_id _ _ hx] at h
  exact ⟨h, h⟩

example : txNibble true [1, 2, 3, 4] 4 [7, 7, 7, 7, 7] = some [1, 2, 3, 4, 7] := by decide +kernel

/-- C87, counterexample.  With an odd length the last byte is not converted: an object of three bytes goes out with
what the buffer held before. -/
theorem C87_counterexample_odd_length (x : Byte) :
    txU16 true [0x34, 0x12, 0x56, 0x00] 3 [0, 0, x, 0, 0, 0, 0, 0] = some [0x12, 0x34, x, 0, 0, 0, 0, 0] := by
  rfl

/-- C87, counterexample.  A 16-bit number converted by the nibble functions is received as another number on a
platform of the other byte order. -/
theorem C87_counterexample_nibble_words :
    ((txNibble true (native true 2 0x1234) 2 [0, 0]).bind fun w => rxNibble false w 2 [0, 0]) =
      some (native false 2 0x3412) := by decide +kernel

end AppConv
end LiCan
