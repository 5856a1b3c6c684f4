import Verif.Model.InfoMem
/-! # A reset in the middle of a write of the transfer info

The transfer info (source/xload/li_can_slv_xload_info.c) lies in memory that survives a reset.  A reset (watchdog, voltage) may come between any two
stores of a call.  Nothing is assumed about the order in which the bytes of a call are stored, except that the checksum comes last (the calls of
`li_can_slv_xload_info_update_crc` are the last statements of the functions); so a reset leaves any mixture of old and new bytes, or the new bytes
with any checksum.
Simplifications: as in `Model/InfoMem`; a store of one byte is not divided. -/
namespace LiCan.InfoMem

variable (p : Plat) (v : Variant) (c : Sum)

/-- `li_can_slv_xload_info_clean` up to the update of the checksum, li_can_slv_xload_info.c:131-141 -/
def wipe (m : List Byte) : List Byte :=
  let m := put p v m .mode (Spec.native p.le p.enumSize 4)
  let m := putC p v m .nr (Spec.native p.le 2 125)
  let m := putC p v m .name (List.replicate 8 0)
  let m := putC p v m .crc (Spec.native p.le 2 0)
  let m := putC p v m .id (Spec.native p.le 4 0)
  let m := putC p v m .index [0]
  let m := if v = .user then put p v (put p v m .user1 [0]) .user2 [0] else m
  putC p v m .type (List.replicate 5 0)

/-- the memory when a call has stored everything but the checksum: li_can_slv_xload_info.c:177 (mode), 197 (reset reason), 226 (component), 245
(baud rate), 263, 280 (user bytes), 131-141 (clean; also in the initialisation, 91, if the info is not accepted) -/
def stored (m : List Byte) : Op → List Byte
  | .mode x => put p v m .mode (Spec.native p.le p.enumSize x)
  | .reset x => put p v m .reset (Spec.native p.le p.enumSize x)
  | .comp bs => put p v m .dload bs
  | .baud x => put p v m .baud (Spec.native p.le 2 x)
  | .user1 x => put p v m .user1 [x]
  | .user2 x => put p v m .user2 [x]
  | .clean => wipe p v m
  | .init => if checkCrc p v c m then m else wipe p v m

/-- each byte is one of `a` or one of `b` -/
def Part (a b r : List Byte) : Prop := r.length = a.length ∧ ∀ i : Nat, r[i]? = a[i]? ∨ r[i]? = b[i]?

/-- The memory after a reset in the middle of a call. -/
inductive Torn (m : List Byte) (op : Op) : List Byte → Prop
  /-- before all members are stored -/
  | data (r : List Byte) : Part m (stored p v c m op) r → Torn m op r
  /-- while the checksum is stored, li_can_slv_xload_info.c:301-307: first its start value, then the sum; nothing is assumed about its bytes -/
  | sum (cs : List Byte) : cs.length = 2 → (op = .init → checkCrc p v c m = false) → Torn m op (store (stored p v c m op) (crcAt p v) cs)

end LiCan.InfoMem
