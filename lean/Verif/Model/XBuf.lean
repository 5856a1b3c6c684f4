import Verif.Model.Basic
/-!
# The transfer (up/download) ring buffer

Models source/xload/li_can_slv_xload_buffer.c.  `B` is
`LI_CAN_SLV_XLOAD_BUFFER_SIZE_DLOAD` (default 140, user configurable; a parameter here).

Simplifications: `uint16_t` indices are `Nat` (faithful for `B ≤ 65535`); pointers through
which data is returned become `Option` results.
-/
namespace LiCan

/-- The ring-buffer part of `li_can_slv_xload_buffer_t`,
include/li_can_slv/xload/li_can_slv_xload_buffer_types.h:66-87 (`data`, `read`,
`read_storage`, `write`, `nr_bytes`, `nr_bytes_storage`). -/
structure XBuf where
  data        : Nat → Byte
  read        : Nat
  write       : Nat
  nr          : Nat
  readStorage : Nat
  nrStorage   : Nat

namespace XBuf

/-- zero initialised global `dload_buffer` (li_can_slv_xload_buffer.c:50). -/
def zero : XBuf := ⟨fun _ => 0, 0, 0, 0, 0, 0⟩

/-- `dload_add_byte_to_buffer`, li_can_slv_xload_buffer.c:81-106. -/
def addByte (b : XBuf) (B : Nat) (x : Byte) : XBuf × Err :=
  if B ≤ b.nr then (b, E.bufOverflow)
  else
    let data := upd b.data b.write x
    let nr := b.nr + 1
    let write := if b.write < B - 1 then b.write + 1 else 0
    ({ b with data := data, nr := nr, write := write }, E.ok)

/-- `xload_buffer_get_byte`, li_can_slv_xload_buffer.c:114-134. -/
def getByte (b : XBuf) (B : Nat) : XBuf × Err × Option Byte :=
  if b.nr ≤ 0 then (b, E.bufUnderflow, none)
  else
    let x := b.data b.read
    let nr := b.nr - 1
    let read := if b.read < B - 1 then b.read + 1 else 0
    ({ b with nr := nr, read := read }, E.ok, some x)

/-- `xload_buffer_get_len`, li_can_slv_xload_buffer.c:216-220. -/
def getLen (b : XBuf) : Nat := b.nr

/-- `dload_store_buf_state`, li_can_slv_xload_buffer.c:226-231. -/
def store (b : XBuf) : XBuf := { b with readStorage := b.read, nrStorage := b.nr }

/-- `dload_restore_buf_state`, li_can_slv_xload_buffer.c:237-243. -/
def restore (b : XBuf) : XBuf := { b with read := b.readStorage, nr := b.nrStorage }

/-- the copy loop of `dload_add_str_to_buffer`, li_can_slv_xload_buffer.c:260-267. -/
def addLoop (b : XBuf) (B : Nat) : List Byte → XBuf × Err
  | [] => (b, E.ok)
  | x :: xs =>
    let (b, rc) := b.addByte B x
    if rc ≠ E.ok then (b, rc) else b.addLoop B xs

/-- `dload_add_str_to_buffer`, li_can_slv_xload_buffer.c:253-290.  `src` is the string with
its length `max_length`. -/
def addStr (b : XBuf) (B : Nat) (src : List Byte) : XBuf × Err :=
  if src.length < B - b.nr then b.addLoop B src else (b, E.bufOverflow)

/-- `dload_remove_bytes`, li_can_slv_xload_buffer.c:350-370. -/
def removeBytes (b : XBuf) (B : Nat) (num : Nat) : XBuf × Err :=
  if b.nr < num then (b, E.bufUnderflow)
  else
    let nr := b.nr - num
    let write := if num ≤ b.write then b.write - num else B - num + b.write
    ({ b with nr := nr, write := write }, E.ok)

/-- One character of the `switch` in `dload_hexchar_to_uint32_internal`,
li_can_slv_xload_buffer.c:300-338: the value added, or `none` for the default case. -/
def hexNibble (c : Byte) : Option Nat :=
  if 0x30 ≤ c.toNat ∧ c.toNat ≤ 0x39 then some (c.toNat - 0x30)
  else if 0x41 ≤ c.toNat ∧ c.toNat ≤ 0x46 then some (c.toNat - 55)
  else if 0x61 ≤ c.toNat ∧ c.toNat ≤ 0x66 then some (c.toNat - 87)
  else none

/-- `dload_hexchar_to_uint32_internal`, li_can_slv_xload_buffer.c:293-343: stops at the first
non-hexadecimal character. -/
def hexToU32 : Nat → List Byte → Nat
  | value, [] => value
  | value, c :: cs =>
    match hexNibble c with
    | some d => hexToU32 (u32 (u32 (value * 16) + d)) cs
    | none => value

/-- The read loops of `dload_get_str_byte` (146-155), `dload_get_str_uint16` (171-180) and
`dload_get_str_uint32` (196-205): read `n` characters, stop at the first error (the
characters already read stay consumed). -/
def getChars (b : XBuf) (B : Nat) : Nat → XBuf × Err × List Byte
  | 0 => (b, E.ok, [])
  | n + 1 =>
    match b.getByte B with
    | (b, rc, some x) =>
      if rc ≠ E.ok then (b, rc, [])
      else
        let (b, rc, xs) := b.getChars B n
        (b, rc, x :: xs)
    | (b, rc, none) => (b, rc, [])

/-- `dload_get_str_byte` li_can_slv_xload_buffer.c:142-159 (2 characters, result cast to 8 bit). -/
def getStrByte (b : XBuf) (B : Nat) : XBuf × Err × Option Nat :=
  let (b, rc, cs) := b.getChars B 2
  if rc ≠ E.ok then (b, rc, none) else (b, E.ok, some (u8 (hexToU32 0 cs)))

/-- `dload_get_str_uint16` li_can_slv_xload_buffer.c:167-184 (2 characters!, cast to 16 bit). -/
def getStrU16 (b : XBuf) (B : Nat) : XBuf × Err × Option Nat :=
  let (b, rc, cs) := b.getChars B 2
  if rc ≠ E.ok then (b, rc, none) else (b, E.ok, some (u16 (hexToU32 0 cs)))

/-- `dload_get_str_uint32` li_can_slv_xload_buffer.c:192-209 (4 characters). -/
def getStrU32 (b : XBuf) (B : Nat) : XBuf × Err × Option Nat :=
  let (b, rc, cs) := b.getChars B 4
  if rc ≠ E.ok then (b, rc, none) else (b, E.ok, some (hexToU32 0 cs))

end XBuf
end LiCan
