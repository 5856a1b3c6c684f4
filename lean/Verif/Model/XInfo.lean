import Verif.Model.Calls
import Verif.Model.Basic
/-!
# Persistent transfer info

Models source/xload/li_can_slv_xload_info.c with `LI_CAN_SLV_XLOAD_INFO_USER`, without
`LI_CAN_SLV_XLOAD_INFO_BACKWARD_COMPATIBILITY`.

Simplifications
* The checksum (`li_can_slv_xload_info_crc16_init`, `.._update`) is any function of the protected
  fields, which are everything in front of `crc` (the structure is packed).
* The terminating byte of the component name is not modelled.
-/
namespace LiCan

/-- `li_can_slv_xload_info_t` without `crc`, include/li_can_slv/xload/li_can_slv_xload_info.h:81-110. -/
structure InfoData where
  mode  : Nat
  comp  : Component
  baud  : Nat
  user1 : Byte
  user2 : Byte

/-- `xload_info`: memory that survives a reset, so its first content is arbitrary. -/
structure XInfo where
  d   : InfoData
  crc : Nat

namespace XInfo

/-- `li_can_slv_xload_info_update_crc`, li_can_slv_xload_info.c:299-308. -/
def updateCrc (crc : InfoData → Nat) (i : XInfo) : XInfo := { i with crc := u16 (crc i.d) }

/-- `li_can_slv_xload_info_check_crc`, li_can_slv_xload_info.c:149-169. -/
def checkCrc (crc : InfoData → Nat) (i : XInfo) : Bool := u16 (crc i.d) = i.crc

/-- `li_can_slv_xload_info_clean`, li_can_slv_xload_info.c:129-143: the baud rate is not touched. -/
def clean (crc : InfoData → Nat) (i : XInfo) : XInfo :=
  updateCrc crc { i with d := { i.d with
    mode := 4, comp := ⟨125, [0, 0, 0, 0, 0, 0, 0, 0], 0, 0, 0, []⟩, user1 := 0, user2 := 0 } }

/-- `li_can_slv_xload_info_init`, li_can_slv_xload_info.c:77-124. -/
def init (crc : InfoData → Nat) (i : XInfo) : XInfo × Err :=
  if checkCrc crc i then (i, E.ok) else (clean crc i, E.infoBadCrc)

/-- `li_can_slv_xload_info_set_mode`, li_can_slv_xload_info.c:175-179. -/
def setMode (crc : InfoData → Nat) (i : XInfo) (m : Nat) : XInfo := updateCrc crc { i with d := { i.d with mode := m } }

/-- `li_can_slv_xload_info_set_dload_component`, li_can_slv_xload_info.c:224-228. -/
def setComp (crc : InfoData → Nat) (i : XInfo) (c : Component) : XInfo :=
  updateCrc crc { i with d := { i.d with comp := c } }

/-- `li_can_slv_xload_info_set_can_baudrate`, li_can_slv_xload_info.c:243-247. -/
def setBaud (crc : InfoData → Nat) (i : XInfo) (b : Nat) : XInfo :=
  updateCrc crc { i with d := { i.d with baud := u16 b } }

/-- `li_can_slv_xload_info_set_user1`, li_can_slv_xload_info.c:261-265. -/
def setUser1 (crc : InfoData → Nat) (i : XInfo) (x : Byte) : XInfo := updateCrc crc { i with d := { i.d with user1 := x } }

/-- `li_can_slv_xload_info_set_user2`, li_can_slv_xload_info.c:278-282. -/
def setUser2 (crc : InfoData → Nat) (i : XInfo) (x : Byte) : XInfo := updateCrc crc { i with d := { i.d with user2 := x } }

/-- The functions that write. -/
inductive Op
  | mode (m : Nat) | comp (c : Component) | baud (b : Nat) | user1 (x : Byte) | user2 (x : Byte) | clean | init

/-- One call. -/
def step (crc : InfoData → Nat) (i : XInfo) : Op → XInfo
  | .mode m => setMode crc i m
  | .comp c => setComp crc i c
  | .baud b => setBaud crc i b
  | .user1 x => setUser1 crc i x
  | .user2 x => setUser2 crc i x
  | .clean => clean crc i
  | .init => (init crc i).1

/-- A history of calls. -/
def run (crc : InfoData → Nat) (i : XInfo) (l : List Op) : XInfo := l.foldl (step crc) i

/-- `li_can_slv_xload_info_get_mode`, li_can_slv_xload_info.c:185-188. -/
def getMode (i : XInfo) : Nat := i.d.mode
/-- `li_can_slv_xload_info_get_dload_component`, li_can_slv_xload_info.c:235-238. -/
def getComp (i : XInfo) : Component := i.d.comp
/-- `li_can_slv_xload_info_get_can_baudrate`, li_can_slv_xload_info.c:252-255. -/
def getBaud (i : XInfo) : Nat := i.d.baud
/-- `li_can_slv_xload_info_get_user1`, li_can_slv_xload_info.c:270-273. -/
def getUser1 (i : XInfo) : Byte := i.d.user1
/-- `li_can_slv_xload_info_get_user2`, li_can_slv_xload_info.c:287-290. -/
def getUser2 (i : XInfo) : Byte := i.d.user2

end XInfo
end LiCan
