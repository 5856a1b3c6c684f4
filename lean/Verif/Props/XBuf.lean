import Verif.Lemmas.XBuf
/-! # Properties of the transfer buffer (C38 - C40) -/
namespace LiCan
open Spec

/-- C38.  For every buffer size and every history of operations, the transfer buffer answers
exactly as a bounded FIFO queue of bytes (`Spec.qstep`): same bytes in the same order, same
lengths, same overflow/underflow codes, and refused operations change nothing. -/
theorem C38_buffer_is_fifo (B : Nat) (hB : 0 < B) (ops : List QOp) :
    (XBuf.zero.run B ops).2 = (qrun B [] ops).2 :=
  (XBuf.holds_run ops (XBuf.holds_zero hB)).1

/-- C38 (memory safety).  Whatever the history, the positions read and written next are inside
the buffer. -/
theorem C38_buffer_in_bounds (B : Nat) (hB : 0 < B) (ops : List QOp) :
    (XBuf.zero.run B ops).1.read < B ∧ (XBuf.zero.run B ops).1.write < B := by
  have h := (XBuf.holds_run ops (XBuf.holds_zero hB)).2
  exact ⟨h.read, by rw [h.write]; exact Nat.mod_lt _ hB⟩

/-- a history on a buffer of 4 bytes that wraps, overflows, truncates and underflows -/
def bufferHistory : List QOp :=
  [.addStr [1, 2, 3], .add 4, .add 5, .get, .get, .add 6, .dropLast 1, .addStr [7, 8], .len,
   .add 7, .get, .get, .get, .get]

example : (XBuf.zero.run 4 bufferHistory).2 =
    [.code 0, .code 0, .code 0x5037#16, .byte 0 (some 1), .byte 0 (some 2), .code 0, .code 0,
     .code 0x5037#16, .num 2, .code 0, .byte 0 (some 3), .byte 0 (some 4), .byte 0 (some 7),
     .byte 0x5038#16 none] := by decide

/-- read `n` bytes -/
def XBuf.reads (B : Nat) : Nat → XBuf → XBuf
  | 0, b => b
  | n + 1, b => XBuf.reads B n (b.getByte B).1

theorem XBuf.reads_frame (B n : Nat) (b : XBuf) :
    (XBuf.reads B n b).data = b.data ∧ (XBuf.reads B n b).write = b.write ∧
    (XBuf.reads B n b).readStorage = b.readStorage ∧ (XBuf.reads B n b).nrStorage = b.nrStorage := by
  induction n generalizing b with
  | zero => simp [XBuf.reads]
  | succ n ih =>
    obtain ⟨h1, h2, h3, h4⟩ := ih (b.getByte B).1
    simp only [XBuf.reads, h1, h2, h3, h4]
    simp only [XBuf.getByte]
    split <;> simp

/-- C39.  Store the state, read any number of bytes, restore: from then on every sequence of
operations gives the same results as if nothing had been read. -/
theorem C39_store_read_restore (B : Nat) (hB : 0 < B) (before : List QOp) (n : Nat)
    (after : List QOp) :
    let b := (XBuf.zero.run B before).1
    ((XBuf.reads B n b.store).restore.run B after).2 = (b.run B after).2 := by
  intro b
  have hh := (XBuf.holds_run before (XBuf.holds_zero hB)).2
  obtain ⟨h1, h2, h3, h4⟩ := XBuf.reads_frame B n b.store
  have hr : XBuf.Holds B ((XBuf.reads B n b.store).restore) (qrun B [] before).1 := by
    constructor
    · show (XBuf.reads B n b.store).readStorage < B
      rw [h3]; exact hh.read
    · show (XBuf.reads B n b.store).nrStorage = _
      rw [h4]; exact hh.nr
    · exact hh.cap
    · show (XBuf.reads B n b.store).write = ((XBuf.reads B n b.store).readStorage + _) % B
      rw [h2, h3]; exact hh.write
    · intro i hi
      show (XBuf.reads B n b.store).data (((XBuf.reads B n b.store).readStorage + i) % B) = _
      rw [h1, h3]; exact hh.cont i hi
  rw [(XBuf.holds_run after hr).1, (XBuf.holds_run after hh).1]

example : ((XBuf.reads 4 2 (XBuf.zero.run 4 [.addStr [1, 2, 3]]).1.store).restore.run 4
    [.get, .get, .get]).2 = [.byte 0 (some 1), .byte 0 (some 2), .byte 0 (some 3)] := by decide

/-- The restriction "no bytes added in between" of C39 is needed: a byte added between storing
and restoring is lost and the next byte added afterwards is read back as the lost one. -/
theorem C39_add_between_counterexample :
    (((((XBuf.zero.addByte 4 1).1.store).addByte 4 2).1.restore).run 4 [.add 3, .get, .get]).2
      = [.code 0, .byte 0 (some 1), .byte 0 (some 2)] := by decide

/-- Hexadecimal digit characters decode to their value. -/
theorem hexNibble_hexDigit (u : Bool) (d : Nat) (h : d < 16) :
    XBuf.hexNibble (hexDigit u d) = some d := by
  have : ∀ u : Bool, ∀ d : Fin 16, XBuf.hexNibble (hexDigit u d) = some d.val := by decide
  exact this u ⟨d, h⟩

theorem hexToU32_hexText (case : Nat → Bool) (n : Nat) (v acc : Nat)
    (hb : (acc + 1) * 16 ^ n ≤ 2 ^ 32) :
    XBuf.hexToU32 acc (hexText case n v) = acc * 16 ^ n + v % 16 ^ n := by
  induction n generalizing acc with
  | zero => simp [hexText, XBuf.hexToU32, Nat.mod_one]
  | succ n ih =>
    have hd : v / 16 ^ n % 16 < 16 := Nat.mod_lt _ (by decide)
    have hpos : 0 < 16 ^ n := Nat.pow_pos (by decide)
    rw [Nat.pow_succ] at hb
    have hb2 : (acc * 16 + 16) * 16 ^ n ≤ 2 ^ 32 := by
      have : (acc * 16 + 16) * 16 ^ n = (acc + 1) * (16 ^ n * 16) := by
        rw [Nat.mul_comm (16 ^ n) 16, ← Nat.mul_assoc]; congr 1; omega
      omega
    have hle : acc * 16 + 16 ≤ 2 ^ 32 :=
      Nat.le_trans (Nat.le_mul_of_pos_right _ hpos) hb2
    simp only [hexText, XBuf.hexToU32, hexNibble_hexDigit _ _ hd, u32]
    rw [Nat.mod_eq_of_lt (by omega : acc * 16 < 2 ^ 32),
      Nat.mod_eq_of_lt (by omega : acc * 16 + v / 16 ^ n % 16 < 2 ^ 32)]
    rw [ih]
    · rw [Nat.pow_succ, Nat.mod_mul, Nat.add_mul, Nat.mul_assoc, Nat.mul_comm 16 (16 ^ n),
        Nat.mul_comm (v / 16 ^ n % 16)]
      omega
    · exact Nat.le_trans (Nat.mul_le_mul_right _ (by omega)) hb2

theorem hexText_length (case : Nat → Bool) (n v : Nat) : (hexText case n v).length = n := by
  induction n with
  | zero => rfl
  | succ n ih => simp [hexText, ih]

/-- C40.  If the oldest bytes waiting in the buffer are the hexadecimal text of a value (any mix
of upper and lower case, at any position of the ring), the field readers return that value and
leave exactly the bytes behind the text: two characters for the byte reader and for the "16 bit"
reader, four characters for the "32 bit" reader. -/
theorem C40_hex_fields (B : Nat) (hB : 0 < B) (ops : List QOp) (case : Nat → Bool) (v : Nat)
    (rest : List Byte) :
    let b := (XBuf.zero.run B ops).1
    (v < 256 → (qrun B [] ops).1 = hexText case 2 v ++ rest →
      (b.getStrByte B).2 = (0x0000#16, some v) ∧ XBuf.Holds B (b.getStrByte B).1 rest ∧
      (b.getStrU16 B).2 = (0x0000#16, some v) ∧ XBuf.Holds B (b.getStrU16 B).1 rest) ∧
    (v < 65536 → (qrun B [] ops).1 = hexText case 4 v ++ rest →
      (b.getStrU32 B).2 = (0x0000#16, some v) ∧ XBuf.Holds B (b.getStrU32 B).1 rest) := by
  intro b
  have hh := (XBuf.holds_run ops (XBuf.holds_zero hB)).2
  constructor
  · intro hv hq
    rw [hq] at hh
    obtain ⟨h1, h2⟩ := XBuf.holds_getChars 2 (hexText_length case 2 v) hh
    have e := hexToU32_hexText case 2 v 0 (by decide)
    have hv' : 0 * 16 ^ 2 + v % 16 ^ 2 = v := by
      have : v % 16 ^ 2 = v := Nat.mod_eq_of_lt (by omega)
      omega
    rw [hv'] at e
    have e8 : u8 v = v := Nat.mod_eq_of_lt (by omega)
    have e16 : u16 v = v := Nat.mod_eq_of_lt (by omega)
    have h1a := congrArg Prod.fst h1
    have h1b := congrArg Prod.snd h1
    simp only at h1a h1b
    refine ⟨?_, ?_, ?_, ?_⟩
    · simp only [XBuf.getStrByte, b, h1a, h1b, e, e8]; simp
    · simp only [XBuf.getStrByte, b, h1a, h1b]; simpa using h2
    · simp only [XBuf.getStrU16, b, h1a, h1b, e, e16]; simp
    · simp only [XBuf.getStrU16, b, h1a, h1b]; simpa using h2
  · intro hv hq
    rw [hq] at hh
    obtain ⟨h1, h2⟩ := XBuf.holds_getChars 4 (hexText_length case 4 v) hh
    have e := hexToU32_hexText case 4 v 0 (by decide)
    have hv' : 0 * 16 ^ 4 + v % 16 ^ 4 = v := by
      have : v % 16 ^ 4 = v := Nat.mod_eq_of_lt (by omega)
      omega
    rw [hv'] at e
    have h1a := congrArg Prod.fst h1
    have h1b := congrArg Prod.snd h1
    simp only at h1a h1b
    refine ⟨?_, ?_⟩
    · simp only [XBuf.getStrU32, b, h1a, h1b, e]; simp
    · simp only [XBuf.getStrU32, b, h1a, h1b]; simpa using h2

/-- 0x3aF9 followed by a carriage return, on a ring of 6 bytes with the text wrapping around -/
example : let b := (XBuf.zero.run 6 [.addStr [0, 0, 0], .get, .get, .get,
      .addStr (hexText (· == 1) 4 0x3af9 ++ [13])]).1
    hexText (· == 1) 4 0x3af9 = [0x33, 0x61, 0x46, 0x39] ∧
    (b.getStrU32 6).2 = (0, some 0x3af9) ∧ ((b.getStrU32 6).1.getByte 6).2 = (0, some 13) := by
  decide

end LiCan
