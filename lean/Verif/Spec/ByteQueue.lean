import Verif.Model.Basic
/-!
# Specification of the transfer buffer: a bounded queue of bytes

No indices: just the list of bytes waiting to be read.
-/
namespace LiCan.Spec

/-- What a client can do with the transfer buffer. -/
inductive QOp
  | add (x : Byte)              -- append one byte
  | get                         -- take the oldest byte
  | addStr (xs : List Byte)     -- append all bytes or none; one place must stay free
  | dropLast (n : Nat)          -- remove the `n` youngest bytes
  | len                         -- number of bytes waiting

/-- What the client sees: return code, and the byte / number if any. -/
inductive QOut
  | code (e : Err)
  | byte (e : Err) (x : Option Byte)
  | num (n : Nat)
deriving DecidableEq

/-- One operation on a queue with room for `B` bytes. -/
def qstep (B : Nat) (q : List Byte) : QOp → List Byte × QOut
  | .add x => if q.length < B then (q ++ [x], .code 0x0000#16) else (q, .code 0x5037#16)
  | .get => match q with
    | [] => ([], .byte 0x5038#16 none)
    | x :: xs => (xs, .byte 0x0000#16 (some x))
  | .addStr xs =>
    if q.length + xs.length < B then (q ++ xs, .code 0x0000#16) else (q, .code 0x5037#16)
  | .dropLast n =>
    if n ≤ q.length then (q.take (q.length - n), .code 0x0000#16) else (q, .code 0x5038#16)
  | .len => (q, .num q.length)

/-- Run a history. -/
def qrun (B : Nat) : List Byte → List QOp → List Byte × List QOut
  | q, [] => (q, [])
  | q, op :: ops =>
    let (q', o) := qstep B q op
    let (q'', os) := qrun B q' ops
    (q'', o :: os)

/-- Hexadecimal digits as text, lower or upper case. -/
def hexDigit (upper : Bool) (d : Nat) : Byte :=
  if d < 10 then UInt8.ofNat (48 + d)               -- '0' + d
  else if upper then UInt8.ofNat (65 + (d - 10))    -- 'A' + (d - 10)
  else UInt8.ofNat (97 + (d - 10))                  -- 'a' + (d - 10)

/-- `n` hexadecimal characters of a value, most significant first; the case of every single
character is arbitrary. -/
def hexText (case : Nat → Bool) : (n : Nat) → (value : Nat) → List Byte
  | 0, _ => []
  | n + 1, v => hexDigit (case n) (v / 16 ^ n % 16) :: hexText case n v

end LiCan.Spec
