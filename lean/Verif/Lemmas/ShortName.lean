import Verif.Spec.Transfer
/-! # Six bit characters -/
namespace LiCan
open Spec Stack

theorem u8_ext {a b : Byte} (h : a.toNat = b.toNat) : a = b := UInt8.toNat_inj.1 h

/-- a statement about all bytes by enumeration -/
theorem forall_byte {p : Byte → Prop} (h : ∀ n < 256, p (UInt8.ofNat n)) (b : Byte) : p b := by
  have := h b.toNat b.toNat_lt
  rwa [UInt8.ofNat_toNat] at this

theorem and_lo2 (b : Byte) : ((b &&& 0x03) <<< 4).toNat = b.toNat % 4 * 16 := by
  refine forall_byte (p := fun b => ((b &&& 0x03) <<< 4).toNat = b.toNat % 4 * 16) ?_ b
  decide +kernel
theorem and_hi4 (b : Byte) : ((b &&& 0xF0) >>> 4).toNat = b.toNat / 16 := by
  refine forall_byte (p := fun b => ((b &&& 0xF0) >>> 4).toNat = b.toNat / 16) ?_ b
  decide +kernel
theorem and_lo4 (b : Byte) : ((b &&& 0x0F) <<< 2).toNat = b.toNat % 16 * 4 := by
  refine forall_byte (p := fun b => ((b &&& 0x0F) <<< 2).toNat = b.toNat % 16 * 4) ?_ b
  decide +kernel
theorem and_hi2 (b : Byte) : ((b &&& 0xC0) >>> 6).toNat = b.toNat / 64 := by
  refine forall_byte (p := fun b => ((b &&& 0xC0) >>> 6).toNat = b.toNat / 64) ?_ b
  decide +kernel
theorem and_lo6 (b : Byte) : (b &&& 0x3F).toNat = b.toNat % 64 := by
  refine forall_byte (p := fun b => (b &&& 0x3F).toNat = b.toNat % 64) ?_ b
  decide +kernel
theorem and_hi6 (b : Byte) : ((b &&& 0xFC) >>> 2).toNat = b.toNat / 4 := by
  refine forall_byte (p := fun b => ((b &&& 0xFC) >>> 2).toNat = b.toNat / 4) ?_ b
  decide +kernel
theorem shr2 (b : Byte) : (b >>> 2).toNat = b.toNat / 4 := by
  refine forall_byte (p := fun b => (b >>> 2).toNat = b.toNat / 4) ?_ b
  decide +kernel

/-- the six bytes -/
theorem packName_bytes (c0 c1 c2 c3 c4 c5 c6 c7 : Nat) (k0 : c0 < 64) (k1 : c1 < 64) (k2 : c2 < 64) (k3 : c3 < 64)
    (k4 : c4 < 64) (k5 : c5 < 64) (k6 : c6 < 64) (k7 : c7 < 64) :
    packName [c0, c1, c2, c3, c4, c5, c6, c7] =
      [UInt8.ofNat (c0 * 4 + c1 / 16), UInt8.ofNat (c1 % 16 * 16 + c2 / 4), UInt8.ofNat (c2 % 4 * 64 + c3),
       UInt8.ofNat (c4 * 4 + c5 / 16), UInt8.ofNat (c5 % 16 * 16 + c6 / 4), UInt8.ofNat (c6 % 4 * 64 + c7)] := by
  have p : ∀ n, 256 ^ (n + 1) = 256 ^ n * 256 := fun n => Nat.pow_succ ..
  simp only [packName, bytes, digits, value, List.foldl_cons, List.foldl_nil, List.map_cons, List.map_nil,
    Nat.mul_zero, Nat.zero_add, show (256 : Nat) ^ 5 = 1099511627776 by decide, show (256 : Nat) ^ 4 = 4294967296 by decide,
    show (256 : Nat) ^ 3 = 16777216 by decide, show (256 : Nat) ^ 2 = 65536 by decide, show (256 : Nat) ^ 1 = 256 by decide,
    show (256 : Nat) ^ 0 = 1 by decide]
  have e0 : (64 * (64 * (64 * (64 * (64 * (64 * (64 * c0 + c1) + c2) + c3) + c4) + c5) + c6) + c7) / 1099511627776 % 256 = c0 * 4 + c1 / 16 := by omega
  have e1 : (64 * (64 * (64 * (64 * (64 * (64 * (64 * c0 + c1) + c2) + c3) + c4) + c5) + c6) + c7) / 4294967296 % 256 = c1 % 16 * 16 + c2 / 4 := by omega
  have e2 : (64 * (64 * (64 * (64 * (64 * (64 * (64 * c0 + c1) + c2) + c3) + c4) + c5) + c6) + c7) / 16777216 % 256 = c2 % 4 * 64 + c3 := by omega
  have e3 : (64 * (64 * (64 * (64 * (64 * (64 * (64 * c0 + c1) + c2) + c3) + c4) + c5) + c6) + c7) / 65536 % 256 = c4 * 4 + c5 / 16 := by omega
  have e4 : (64 * (64 * (64 * (64 * (64 * (64 * (64 * c0 + c1) + c2) + c3) + c4) + c5) + c6) + c7) / 256 % 256 = c5 % 16 * 16 + c6 / 4 := by omega
  have e5 : (64 * (64 * (64 * (64 * (64 * (64 * (64 * c0 + c1) + c2) + c3) + c4) + c5) + c6) + c7) / 1 % 256 = c6 % 4 * 64 + c7 := by omega
  rw [e0, e1, e2, e3, e4, e5]

theorem ofNat_small {n : Nat} (h : n < 256) : (UInt8.ofNat n).toNat = n := by
  rw [UInt8.toNat_ofNat']; exact Nat.mod_eq_of_lt h

theorem add20 {x : Byte} {n : Nat} (hx : x.toNat = n) (h : n < 64) : (0x20 : Byte) + x = UInt8.ofNat (0x20 + n) := by
  apply u8_ext
  rw [UInt8.toNat_add, hx, ofNat_small (by omega)]
  show (32 + n) % 256 = _
  omega

theorem add20' {x y : Byte} {n : Nat} (hx : x.toNat + y.toNat = n) (h : n < 64) :
    (0x20 : Byte) + x + y = UInt8.ofNat (0x20 + n) := by
  apply u8_ext
  rw [UInt8.toNat_add, UInt8.toNat_add, ofNat_small (by omega)]
  show ((32 + x.toNat) % 256 + y.toNat) % 256 = _
  omega

/-- C41's arithmetic: unpacking undoes packing -/
theorem shortName_pack (a b : Byte) (cs : List Nat) (h8 : cs.length = 8) (h : ∀ c ∈ cs, c < 64) :
    shortName (a :: b :: packName cs) = nameText cs := by
  match cs, h8 with
  | [c0, c1, c2, c3, c4, c5, c6, c7], _ =>
  have k0 := h c0 (by simp); have k1 := h c1 (by simp); have k2 := h c2 (by simp); have k3 := h c3 (by simp)
  have k4 := h c4 (by simp); have k5 := h c5 (by simp); have k6 := h c6 (by simp); have k7 := h c7 (by simp)
  rw [packName_bytes _ _ _ _ _ _ _ _ k0 k1 k2 k3 k4 k5 k6 k7]
  simp only [shortName, b8, List.getD_cons_succ, List.getD_cons_zero, nameText, List.map_cons, List.map_nil]
  rw [add20 (n := c0), add20' (n := c1), add20' (n := c2), add20 (n := c3), add20 (n := c4), add20' (n := c5),
    add20' (n := c6), add20 (n := c7)] <;> try assumption
  all_goals
    (try simp only [and_lo2, and_hi4, and_lo4, and_hi2, and_lo6, and_hi6]); (try simp only [shr2])
    repeat rw [ofNat_small (by omega)]
    omega

end LiCan
