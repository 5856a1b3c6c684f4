import Verif.Model.Basic
/-!
# Conversions between CAN data and application data

Models verify/io_app_conv/io_app_convc.c and the macros of io_app_convc.h.  Both platform byte orders:
`le` is `APP_PLATFORM_BYTE_ORDER_LITTLE_ENDIAN`.

Simplifications
* Memory is a list of bytes beginning at the pointer handed over; an access beyond it is `none`.  Alignment
  and the effective type of the bytes are not modelled.
* All functions return `LCSA_ERROR_OK`; the return code is left out.
* The functions `app_convc_mon_rx_*` have the text of `app_convc_main_rx_*`.
* The loops with a `uint8_t` counter (uint12 functions) end because `dlc` is at most 255 there; a length code is
  at most 8.
-/
namespace LiCan
namespace AppConv

/-- reading one byte -/
def rd8 (m : List Byte) (a : Nat) : Option Byte := m[a]?
/-- writing one byte -/
def wr8 (m : List Byte) (a : Nat) (v : Byte) : Option (List Byte) := if a < m.length then some (m.set a v) else none

/-- `*(uint16_t *)` on a platform with the byte order `le` -/
def rd16 (le : Bool) (m : List Byte) (a : Nat) : Option (BitVec 16) :=
  match rd8 m a, rd8 m (a + 1) with
  | some x, some y => some (if le then y.toBitVec ++ x.toBitVec else x.toBitVec ++ y.toBitVec)
  | _, _ => none

/-- `*(uint16_t *) = v` -/
def wr16 (le : Bool) (m : List Byte) (a : Nat) (v : BitVec 16) : Option (List Byte) :=
  let hi : Byte := ⟨v.extractLsb' 8 8⟩
  let lo : Byte := ⟨v.extractLsb' 0 8⟩
  (wr8 m a (if le then lo else hi)).bind fun m => wr8 m (a + 1) (if le then hi else lo)

/-- `*(uint32_t *)` -/
def rd32 (le : Bool) (m : List Byte) (a : Nat) : Option (BitVec 32) :=
  match rd16 le m a, rd16 le m (a + 2) with
  | some x, some y => some (if le then y ++ x else x ++ y)
  | _, _ => none

/-- `*(uint32_t *) = v` -/
def wr32 (le : Bool) (m : List Byte) (a : Nat) (v : BitVec 32) : Option (List Byte) :=
  let hi : BitVec 16 := v.extractLsb' 16 16
  let lo : BitVec 16 := v.extractLsb' 0 16
  (wr16 le m a (if le then lo else hi)).bind fun m => wr16 le m (a + 2) (if le then hi else lo)

/-- `APP_CONV_ROTL16(v, 8)`, io_app_convc.h:52 -/
def rotl16 (v : BitVec 16) : BitVec 16 := (v <<< 8) ||| (v >>> 8)
/-- `APP_CONV_ROTL32(v, 16)`, io_app_convc.h:59 -/
def rotl32 (v : BitVec 32) : BitVec 32 := (v <<< 16) ||| (v >>> 16)

/-- `*w = *r; w++; r++`, `n` times, from `src` at `r` to `dst` at `w`, io_app_convc.c:71-76. -/
def copyUp (src : List Byte) : Nat → Nat → Nat → List Byte → Option (List Byte)
  | 0, _, _, dst => some dst
  | n + 1, r, w, dst => (rd8 src r).bind fun x => (wr8 dst w x).bind fun d => copyUp src n (r + 1) (w + 1) d

/-- `*w = *r; w--; r++`, `n` times, beginning at `w = n - 1`, io_app_convc.c:86-94. -/
def copyDown (src : List Byte) : Nat → Nat → List Byte → Option (List Byte)
  | 0, _, dst => some dst
  | n + 1, r, dst => (rd8 src r).bind fun x => (wr8 dst n x).bind fun d => copyDown src n (r + 1) d

/-- `app_convc_main_rx_bit`, io_app_convc.c:62-96; `app_convc_mon_rx_bit`, io_app_convc.c:105-139. -/
def rxBit (le : Bool) (can : List Byte) (dlc : Nat) (app : List Byte) : Option (List Byte) :=
  if le then copyUp can dlc 0 0 app else copyDown can dlc 0 app

/-- `app_convc_tx_bit`, io_app_convc.c:148-183. -/
def txBit (le : Bool) (app : List Byte) (dlc : Nat) (can : List Byte) : Option (List Byte) :=
  if le then copyUp app dlc 0 0 can else copyDown app dlc 0 can

/-- `*w = f(*r); w++; r++` with 16-bit words, `n` times -/
def words (f : BitVec 16 → BitVec 16) (le : Bool) (src : List Byte) : Nat → Nat → List Byte → Option (List Byte)
  | 0, _, dst => some dst
  | n + 1, a, dst => (rd16 le src a).bind fun x => (wr16 le dst a (f x)).bind fun d => words f le src n (a + 2) d

/-- `app_convc_main_rx_nibble`, io_app_convc.c:192-226; `app_convc_mon_rx_nibble`, io_app_convc.c:235-269 (both
byte orders are the same). -/
def rxNibble (le : Bool) (can : List Byte) (dlc : Nat) (app : List Byte) : Option (List Byte) :=
  words id le can (dlc / 2) 0 app

/-- `app_convc_tx_nibble`, io_app_convc.c:278-312. -/
def txNibble (le : Bool) (app : List Byte) (dlc : Nat) (can : List Byte) : Option (List Byte) :=
  words id le app (dlc / 2) 0 can

/-- The conversion of one word in the uint16 functions, io_app_convc.c:333-337. -/
def sw16 (le : Bool) (v : BitVec 16) : BitVec 16 := if le then rotl16 v else v

/-- `app_convc_main_rx_uint16`, io_app_convc.c:321-342; `app_convc_mon_rx_uint16`, io_app_convc.c:351-372. -/
def rxU16 (le : Bool) (can : List Byte) (dlc : Nat) (app : List Byte) : Option (List Byte) :=
  words (sw16 le) le can (dlc / 2) 0 app

/-- `app_convc_tx_uint16`, io_app_convc.c:381-402. -/
def txU16 (le : Bool) (app : List Byte) (dlc : Nat) (can : List Byte) : Option (List Byte) :=
  words (sw16 le) le app (dlc / 2) 0 can

/-- `*r = APP_CONV_ROTL16(*r, 8); r++`, `n` times, in place, io_app_convc.c:425-429. -/
def swap16 (le : Bool) : Nat → Nat → List Byte → Option (List Byte)
  | 0, _, m => some m
  | n + 1, a, m => (rd16 le m a).bind fun x => (wr16 le m a (rotl16 x)).bind fun m => swap16 le n (a + 2) m

/-- `*w32 = f(*r32)`, `n` times, io_app_convc.c:438-452 (writing is repeated until the value reads back, which it
does at once). -/
def dwords (f : BitVec 32 → BitVec 32) (le : Bool) (src : List Byte) : Nat → Nat → List Byte → Option (List Byte)
  | 0, _, dst => some dst
  | n + 1, a, dst => (rd32 le src a).bind fun x => (wr32 le dst a (f x)).bind fun d => dwords f le src n (a + 4) d

/-- `*w32 = APP_CONV_ROTL32(*w32, 16); w32++`, `n` times, in place, io_app_convc.c:541-545. -/
def swap32 (le : Bool) : Nat → Nat → List Byte → Option (List Byte)
  | 0, _, m => some m
  | n + 1, a, m => (rd32 le m a).bind fun x => (wr32 le m a (rotl32 x)).bind fun m => swap32 le n (a + 4) m

/-- `app_convc_main_rx_uint32`, io_app_convc.c:411-454; `app_convc_mon_rx_uint32`, io_app_convc.c:463-506: the CAN
data (changed in place on little endian platforms) and the application data. -/
def rxU32 (le : Bool) (can : List Byte) (dlc : Nat) (app : List Byte) : Option (List Byte × List Byte) :=
  (if le then swap16 le (2 * (dlc / 4)) 0 can else some can).bind fun can =>
    (dwords (if le then rotl32 else id) le can (dlc / 4) 0 app).map fun app => (can, app)

/-- `app_convc_tx_uint32`, io_app_convc.c:515-548. -/
def txU32 (le : Bool) (app : List Byte) (dlc : Nat) (can : List Byte) : Option (List Byte) :=
  (words (sw16 le) le app (2 * (dlc / 4)) 0 can).bind fun can =>
    if le then swap32 le (dlc / 4) 0 can else some can

/-- `app_convc_sint32_to_sint20`, io_app_convc.c:557-588: the eight bytes written, for the three 32-bit values
read (`dword_t`).  Defined for little endian platforms only. -/
def sint20 (c1 c2 c3 : BitVec 32) : List Byte :=
  let b (v : BitVec 32) : Byte := ⟨v.extractLsb' 0 8⟩                -- `(byte_t)`
  [b (c1 >>> 12), b (c1 >>> 4), b (c1 <<< 4) ||| b (0x0F#32 &&& (c2 >>> 16)), b (c2 >>> 8), b c2,
   b (c3 >>> 12), b (c3 >>> 4), b (c3 <<< 4)]

/-- `*w &= 0x000F; *w |= *r << 4; w++; r++`, `n` times, io_app_convc.c:605-614, from byte `r` of the CAN data to the
application data at `w` (in bytes). -/
def rxHigh (can : List Byte) : Nat → Nat → Nat → List Byte → Option (List Byte)
  | 0, _, _, app => some app
  | n + 1, r, w, app => (rd16 true app w).bind fun x => (rd8 can r).bind fun y =>
      (wr16 true app w ((x &&& 0x000F#16) ||| (y.toBitVec.setWidth 16 <<< 4))).bind fun app =>
        rxHigh can n (r + 1) (w + 2) app

/-- The loop io_app_convc.c:669-688: the nibbles of a byte to two words. -/
def rxLow (can : List Byte) : Nat → Nat → Nat → List Byte → Option (List Byte)
  | 0, _, _, app => some app
  | n + 1, r, w, app => (rd8 can r).bind fun y =>
      let lo := y.toBitVec &&& 0x0F#8
      let hi := (y.toBitVec &&& 0xF0#8) >>> 4
      (rd16 true app w).bind fun x => (wr16 true app w ((x &&& 0xFFF0#16) ||| hi.setWidth 16)).bind fun app =>
        (rd16 true app (w + 2)).bind fun x =>
          (wr16 true app (w + 2) ((x &&& 0xFFF0#16) ||| lo.setWidth 16)).bind fun app => rxLow can n (r + 1) (w + 4) app

/-- `app_convc_main_rx_uint12_msg_obj_1`, io_app_convc.c:596-616.  `p` is the position of the pointer `app` in the
application data (in bytes).  Little endian platforms only. -/
def rxU12a (can : List Byte) (dlc : Nat) (app : List Byte) (p : Nat) : Option (List Byte) := rxHigh can dlc 0 p app
/-- `app_convc_main_rx_uint12_msg_obj_2`, io_app_convc.c:624-646: four words behind the pointer. -/
def rxU12b (can : List Byte) (dlc : Nat) (app : List Byte) (p : Nat) : Option (List Byte) := rxHigh can dlc 0 (p + 8) app
/-- `app_convc_main_rx_uint12_msg_obj_3`, io_app_convc.c:654-690: eight words before the pointer. -/
def rxU12c (can : List Byte) (dlc : Nat) (app : List Byte) (p : Nat) : Option (List Byte) :=
  if 16 ≤ p then rxLow can dlc 0 (p - 16) app else none

/-- `*w = (byte_t)((*r) >> 4); w++; r++`, `n` times, io_app_convc.c:707-713. -/
def txHigh (app : List Byte) : Nat → Nat → Nat → List Byte → Option (List Byte)
  | 0, _, _, can => some can
  | n + 1, r, w, can => (rd16 true app r).bind fun x =>
      (wr8 can w ⟨(x >>> 4).extractLsb' 0 8⟩).bind fun can => txHigh app n (r + 2) (w + 1) can

/-- The loop io_app_convc.c:763-781: the low nibbles of two words to one byte. -/
def txLow (app : List Byte) : Nat → Nat → Nat → List Byte → Option (List Byte)
  | 0, _, _, can => some can
  | n + 1, r, w, can => (rd16 true app r).bind fun x => (rd16 true app (r + 2)).bind fun y => (rd8 can w).bind fun _ =>
      let hi : BitVec 8 := (x &&& 0x000F#16).extractLsb' 0 8
      let lo : BitVec 8 := (y &&& 0x000F#16).extractLsb' 0 8
      (wr8 can w ⟨(hi <<< 4) ||| lo⟩).bind fun can => txLow app n (r + 4) (w + 1) can

/-- `app_convc_main_tx_uint12_msg_obj_1`, io_app_convc.c:698-715. -/
def txU12a (app : List Byte) (p : Nat) (dlc : Nat) (can : List Byte) : Option (List Byte) := txHigh app dlc p 0 can
/-- `app_convc_main_tx_uint12_msg_obj_2`, io_app_convc.c:723-742. -/
def txU12b (app : List Byte) (p : Nat) (dlc : Nat) (can : List Byte) : Option (List Byte) := txHigh app dlc (p + 8) 0 can
/-- `app_convc_main_tx_uint12_msg_obj_3`, io_app_convc.c:750-783. -/
def txU12c (app : List Byte) (p : Nat) (dlc : Nat) (can : List Byte) : Option (List Byte) :=
  if 16 ≤ p then txLow app dlc (p - 16) 0 can else none

end AppConv
end LiCan
