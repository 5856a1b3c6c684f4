import Verif.Model.Basic
import Verif.Spec.Conv
/-!
# The bytes of the persistent transfer info

`xload_info` of source/xload/li_can_slv_xload_info.c as the bytes it occupies in the memory of a platform, with all
three variants of the structure (plain, `LI_CAN_SLV_XLOAD_INFO_USER`, `LI_CAN_SLV_XLOAD_INFO_BACKWARD_COMPATIBILITY`)
and both ways it may be laid out (packed or with natural alignment, li_can_slv_xload_info.h:84-91). `Model/XInfo.lean`
is the same file with the members as values and the checksum as a function of them.

Simplifications
* `li_can_slv_xload_info_crc16_init` and `.._update` (supplied by the application) are any number and any function
  of a start value and bytes; the result is cut to 16 bits.
* The layout rule is the usual one: each member at the next multiple of its alignment, the whole rounded up to the
  largest alignment. The C standard leaves this to the compiler.
* A pointer to a 32-bit or 16-bit number is as any other; unaligned access in a packed structure works.
-/
namespace LiCan.InfoMem

/-- What the structure depends on: include/li_can_slv/xload/li_can_slv_xload_info.h:84-116. -/
inductive Variant
  | plain | user | backward
  deriving DecidableEq

/-- A platform: size and alignment of an enumeration, alignments of the 16- and 32-bit numbers, byte order, whether
the structure is packed (li_can_slv_xload_info.h:84-91: GCC and IAR only). -/
structure Plat where
  enumSize  : Nat
  enumAlign : Nat
  align16   : Nat
  align32   : Nat
  le        : Bool
  packed    : Bool

/-- Members. -/
inductive Member
  | mode | reset | dload | baud | err | user1 | user2 | crc | tmp1 | tmp2
  deriving DecidableEq

/-- Members of the component. -/
inductive CMember
  | nr | name | crc | id | index | type
  deriving DecidableEq

/-- A member in a declaration: its name, size and alignment. -/
abbrev Decl (α : Type) := α × Nat × Nat

/-- The next multiple of `a`. -/
def roundUp (n a : Nat) : Nat := (n + a - 1) / a * a

/-- Where the members lie, the first one at `o` or behind, and where the last one ends. -/
def place {α : Type} : List (Decl α) → Nat → List (α × Nat) × Nat
  | [], o => ([], o)
  | d :: l, o =>
    let here := roundUp o d.2.2
    let rest := place l (here + d.2.1)
    ((d.1, here) :: rest.1, rest.2)

/-- The alignment of a structure. -/
def alignOf {α : Type} (l : List (Decl α)) : Nat := l.foldl (fun a d => max a d.2.2) 1

/-- `sizeof`. -/
def bytesOf {α : Type} (l : List (Decl α)) : Nat := roundUp (place l 0).2 (alignOf l)

/-- `offsetof`. -/
def offset {α : Type} [DecidableEq α] (l : List (Decl α)) (m : α) : Nat :=
  match (place l 0).1.find? (fun x => x.1 = m) with
  | some x => x.2
  | none => 0

/-- `li_can_slv_xload_component_t`, include/li_can_slv/xload/li_can_slv_xload_buffer_types.h:52-60: never packed. -/
def component (p : Plat) : List (Decl CMember) :=
  [(.nr, 2, p.align16), (.name, 9, 1), (.crc, 2, p.align16), (.id, 4, p.align32), (.index, 1, 1), (.type, 5, 1)]

/-- `li_can_slv_xload_info_t`, include/li_can_slv/xload/li_can_slv_xload_info.h:84-116, with the alignments of its
members' types; `err` (li_can_slv_xload_info.h:76-80) is two 32-bit numbers. -/
def members (p : Plat) (v : Variant) : List (Decl Member) :=
  let mode : List (Decl Member) := [(.mode, p.enumSize, p.enumAlign)]
  let dload : List (Decl Member) :=
    [(.dload, bytesOf (component p), alignOf (component p)), (.baud, 2, p.align16)]
  match v with
  | .plain => mode ++ dload ++ [(.crc, 2, p.align16)]
  | .user => mode ++ dload ++ [(.user1, 1, 1), (.user2, 1, 1), (.crc, 2, p.align16)]
  | .backward =>
    mode ++ [(.reset, p.enumSize, p.enumAlign)] ++ dload ++
      [(.err, 8, p.align32), (.crc, 2, p.align16), (.tmp1, 1, 1), (.tmp2, 1, 1)]

/-- The structure as it is compiled: `#pragma pack(1)` / `__packed` make every alignment 1. -/
def info (p : Plat) (v : Variant) : List (Decl Member) :=
  if p.packed then (members p v).map (fun d => (d.1, d.2.1, 1)) else members p v

/-- The number of bytes the checksum is computed over: li_can_slv_xload_info.c:155-159, 302-306. -/
def covered (p : Plat) (v : Variant) : Nat :=
  match v with
  | .backward => bytesOf (info p v) - 2 - 2
  | _ => bytesOf (info p v) - 2

/-- `&xload_info.crc`. -/
def crcAt (p : Plat) (v : Variant) : Nat := offset (info p v) .crc

/-- Bytes stored at an address. -/
def store (m : List Byte) (o : Nat) (bs : List Byte) : List Byte := m.take o ++ bs ++ m.drop (o + bs.length)

/-- Bytes read from an address. -/
def load (m : List Byte) (o n : Nat) : List Byte := (m.drop o).take n

/-- The application's checksum: `li_can_slv_xload_info_crc16_init`, `li_can_slv_xload_info_crc16_update`. -/
structure Sum where
  init   : Nat
  update : Nat → List Byte → Nat

variable (p : Plat) (v : Variant) (c : Sum)

/-- `li_can_slv_xload_info_update_crc`, li_can_slv_xload_info.c:299-308: the start value passes through the member. -/
def updateCrc (m : List Byte) : List Byte :=
  let m1 := store m (crcAt p v) (Spec.native p.le 2 c.init)
  store m1 (crcAt p v) (Spec.native p.le 2 (c.update (u16 c.init) (m1.take (covered p v))))

/-- `li_can_slv_xload_info_check_crc`, li_can_slv_xload_info.c:149-169: the sum is compared with the stored one. -/
def checkCrc (m : List Byte) : Bool :=
  load m (crcAt p v) 2 = Spec.native p.le 2 (c.update (u16 c.init) (m.take (covered p v)))

/-- An assignment to a member or a copy into it. -/
def put (m : List Byte) (k : Member) (bs : List Byte) : List Byte := store m (offset (info p v) k) bs

/-- An assignment to a member of `dload`. -/
def putC (m : List Byte) (k : CMember) (bs : List Byte) : List Byte :=
  store m (offset (info p v) .dload + offset (component p) k) bs

/-- `li_can_slv_xload_info_clean`, li_can_slv_xload_info.c:129-143: the ninth byte of the name, the baud rate, the
reset reason, the errors and the padding bytes keep what they hold. -/
def clean (m : List Byte) : List Byte :=
  let m := put p v m .mode (Spec.native p.le p.enumSize 4)
  let m := putC p v m .nr (Spec.native p.le 2 125)
  let m := putC p v m .name (List.replicate 8 0)
  let m := putC p v m .crc (Spec.native p.le 2 0)
  let m := putC p v m .id (Spec.native p.le 4 0)
  let m := putC p v m .index [0]
  let m := if v = .user then put p v (put p v m .user1 [0]) .user2 [0] else m
  let m := putC p v m .type (List.replicate 5 0)
  updateCrc p v c m

/-- `li_can_slv_xload_info_init`, li_can_slv_xload_info.c:77-124. -/
def init (m : List Byte) : List Byte × Err :=
  if checkCrc p v c m then (m, E.ok) else (clean p v c m, E.infoBadCrc)

/-- The functions that write; `reset` exists in the variant `backward` only, `user1`, `user2` in `user` only. -/
inductive Op
  | mode (x : Nat) | reset (x : Nat) | comp (bs : List Byte) | baud (x : Nat) | user1 (x : Byte) | user2 (x : Byte)
  | clean | init

/-- Calls that the variant has and that pass what their types say: a component is its bytes. -/
def Op.ok : Op → Prop
  | .reset _ => v = .backward
  | .comp bs => bs.length = bytesOf (component p)
  | .user1 _ | .user2 _ => v = .user
  | _ => True

/-- One call: li_can_slv_xload_info.c:175-179 (mode), 195-199 (reset reason), 224-228 (component), 243-247 (baud
rate), 261-265, 278-282 (user bytes). -/
def step (m : List Byte) : Op → List Byte
  | .mode x => updateCrc p v c (put p v m .mode (Spec.native p.le p.enumSize x))
  | .reset x => updateCrc p v c (put p v m .reset (Spec.native p.le p.enumSize x))
  | .comp bs => updateCrc p v c (put p v m .dload bs)
  | .baud x => updateCrc p v c (put p v m .baud (Spec.native p.le 2 x))
  | .user1 x => updateCrc p v c (put p v m .user1 [x])
  | .user2 x => updateCrc p v c (put p v m .user2 [x])
  | .clean => clean p v c m
  | .init => (init p v c m).1

/-- A history of calls. -/
def run (m : List Byte) (l : List Op) : List Byte := l.foldl (step p v c) m

/-- The getters: li_can_slv_xload_info.c:185-188 (mode), 205-208 (reset reason), 235-238 (component), 252-255 (baud
rate), 270-273, 287-290 (user bytes). -/
def get (m : List Byte) (k : Member) (n : Nat) : List Byte := load m (offset (info p v) k) n

end LiCan.InfoMem
