import Verif.Model.Basic
/-! # Specification of the conversions: numbers and their bytes -/
namespace LiCan.Spec

/-- the `n` bytes of a number, most significant first -/
def be : Nat → Nat → List Byte
  | 0, _ => []
  | n + 1, v => be n (v / 256) ++ [UInt8.ofNat v]

/-- the `n` bytes of a number in the memory of a platform (`le`: least significant first) -/
def native (le : Bool) (n v : Nat) : List Byte := if le then (be n v).reverse else be n v

end LiCan.Spec

namespace LiCan.Spec

/-- The three objects that carry sixteen 12-bit channels `v 0 .. v 15`: the high bytes of the channels 0..7, of the
channels 8..15, and the low nibbles of two channels per byte. -/
def u12Object (v : Nat → Nat) : Fin 3 → List Byte
  | 0 => (List.range 8).map fun i => UInt8.ofNat (v i / 16)
  | 1 => (List.range 8).map fun i => UInt8.ofNat (v (8 + i) / 16)
  | 2 => (List.range 8).map fun i => UInt8.ofNat (v (2 * i) % 16 * 16 + v (2 * i + 1) % 16)

/-- the number in two bytes, least significant first -/
def word (m : List Byte) (a : Nat) : Nat := (m.getD a 0).toNat + 256 * (m.getD (a + 1) 0).toNat

/-- the number of bytes, most significant first -/
def number (l : List Byte) : Nat := l.foldl (fun a b => 256 * a + b.toNat) 0

end LiCan.Spec
