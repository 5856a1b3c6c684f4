import Verif.Model.Basic
/-!
# Error numbers and the system error queue

Models include/li_can_slv/error/io_can_errno.h:61-99 and
source/error/io_can_error.c (variant with `LI_CAN_SLV_SYS_MODULE_ERROR` and
`LI_CAN_SLV_SYS_ERROR_QUEUE`).

Simplifications: interrupts inside the functions are not modelled here but in
`Model/ErrIrq` (the source carries `@todo is here a irq lock needed`).  `in_next_idx`, `out_next_idx`,
`count` are `uint16_t`; they are `Nat` here, faithful for queue sizes up to 32767
(for larger sizes the cast to `sint16_t` in line 240 would misbehave).
-/
namespace LiCan

/-- `msg_code_t` (`uint32_t`). -/
abbrev MsgCode := BitVec 32

/-- `MSG_SG_EXPAND_CODE(x)`, io_can_errno.h:91. -/
def sgExpandCode (x : Err) : MsgCode := x.setWidth 32 &&& ~~~ (0x0F000000#32 >>> 12)
/-- `MSG_SG_EXPAND_GROUP(x)`, io_can_errno.h:92. -/
def sgExpandGroup (x : Err) : MsgCode := (x.setWidth 32 <<< 12) &&& 0x0F000000#32
/-- `MSG_SG_EXPAND(x)`, io_can_errno.h:93. -/
def sgExpand (x : Err) : MsgCode := sgExpandGroup x ||| sgExpandCode x
/-- `MSG_EXTRACT_CODE(x)`, io_can_errno.h:96. -/
def extractCode (m : MsgCode) : MsgCode := m &&& 0x00FFFFFF#32
/-- `MSG_EXTRACT_SUBGROUP(x)`, io_can_errno.h:97. -/
def extractSubgroup (m : MsgCode) : BitVec 8 := ((m &&& 0x0F000000#32) >>> 24).setWidth 8
/-- `MSG_EXTRACT_GROUP(x)`, io_can_errno.h:98. -/
def extractGroup (m : MsgCode) : BitVec 8 := ((m &&& 0xF0000000#32) >>> 28).setWidth 8
/-- `MSG_EXTRACT_GROUP_SUBGROUP(x)`, io_can_errno.h:99. -/
def extractGroupSubgroup (m : MsgCode) : BitVec 8 :=
  ((m &&& (0xF0000000#32 ||| 0x0F000000#32)) >>> 24).setWidth 8
/-- `MSG_SG_EXPAND(errnum) | MSG_GROUP_CAN`, as used by `error_syserr_send`
(source/error/io_can_error.c:146). -/
def canMsgCode (x : Err) : MsgCode := sgExpand x ||| 0x70000000#32

/-- The error number reconstructed by `can_error_sys_error_get`
(source/error/io_can_error.c:359): `(MSG_EXTRACT_SUBGROUP(m) << 12) | MSG_EXTRACT_CODE(m)`,
cast to 16 bit. -/
def errnumOf (m : MsgCode) : Err :=
  (((extractSubgroup m).setWidth 32 <<< 12) ||| extractCode m).setWidth 16

/-- Error priorities `err_prio_t`, include/li_can_slv/error/li_can_slv_error_types.h.
Kept as the numeric value. -/
abbrev Prio := Nat
/-- `ERR_LVL_INFO` -/
@[simp] abbrev prioInfo : Prio := 4
/-- `ERR_LVL_CRITICAL` -/
@[simp] abbrev prioCritical : Prio := 13
/-- `ERR_LVL_FATAL` -/
@[simp] abbrev prioFatal : Prio := 15

/-- `can_error_sys_error_queue_entry_t`, io_can_error.c:56-63. -/
structure ErrEntry where
  msgCode  : MsgCode
  prio     : Prio
  moduleNr : Nat
  addInfo  : BitVec 8
  group    : BitVec 8
deriving DecidableEq, Repr

/-- entry written by `can_error_init`, io_can_error.c:508-512. -/
def ErrEntry.zero : ErrEntry := ⟨0, 0, 0, 0, 0⟩

/-- `can_error_sys_error_queue` and `can_error_sys_error_state`, io_can_error.c:70-76,101-104.
`ub` is not in the source: it becomes true when an access outside
`error_syserr_queue[SIZE]` happens (undefined behaviour); the access itself then has
no effect on the modelled memory. -/
structure ErrQ where
  buf    : Nat → ErrEntry
  inIdx  : Nat
  outIdx : Nat
  count  : Nat
  ready  : Bool
  ub     : Bool

namespace ErrQ

/-- State of the static variables at program start (io_can_error.c:103-104, zero
initialised, `CAN_ERR_SYS_NOT_INITIALIZED`). -/
def boot : ErrQ := ⟨fun _ => .zero, 0, 0, 0, false, false⟩

/-- `can_error_init`, io_can_error.c:502-521. -/
def init (q : ErrQ) (sz : Nat) : ErrQ :=
  { q with buf := fun i => if i < sz then .zero else q.buf i
           count := 0, outIdx := 0, inIdx := 0, ready := true }

/-- `error_syserr_queue[in_next_idx] = e` (all five fields), io_can_error.c:255-259, 275-279. -/
def write (q : ErrQ) (sz : Nat) (e : ErrEntry) : ErrQ :=
  if q.inIdx < sz then { q with buf := upd q.buf q.inIdx e } else { q with ub := true }

/-- `if (count < SIZE) ++count`, io_can_error.c:251-254, 270-273. -/
def incCount (q : ErrQ) (sz : Nat) : ErrQ :=
  if q.count < sz then { q with count := q.count + 1 } else q

/-- `can_error_sys_error_send_full`, io_can_error.c:181-342. -/
def sendFull (q : ErrQ) (sz : Nat) (msgCode : MsgCode) (addInfo : BitVec 8) (prio : Prio)
    (group subgroup : BitVec 8) (nr : Nat) : ErrQ × Err :=
  let q := if q.ready then q else q.init sz                        -- 211-214
  let gs : BitVec 8 := subgroup + (group <<< 4)                    -- 218
  if prio = prioFatal then (q, E.ok)                               -- 220-225
  else
    let free : Int := (sz : Int) - ((q.count : Int) + 2)           -- 240
    if free < 0 then (q, E.errQueueFull)                           -- 242-247
    else
      let q := q.incCount sz                                       -- 251-254
      let q := q.write sz ⟨msgCode, prio, nr, addInfo, gs⟩
      let q := { q with inIdx := (q.inIdx + 1) % sz }              -- 260
      if free = 0 then                                             -- 263-281
        let mc := canMsgCode E.errQueueFull
        let q := q.incCount sz
        let q := q.write sz ⟨mc, prioCritical, nr, 0, extractGroupSubgroup mc⟩
        ({ q with inIdx := q.inIdx + 1 }, E.errQueueFull)          -- no modulo here
      else (q, E.ok)

/-- `error_syserr_send` / `error_syserr_send_with_info_byte`, io_can_error.c:139-178. -/
def syserrSend (q : ErrQ) (sz : Nat) (e : Err) (prio : Prio) (nr : Nat)
    (addInfo : BitVec 8 := 0) : ErrQ × Err :=
  let mc := canMsgCode e
  q.sendFull sz mc addInfo prio (extractGroup mc) (extractSubgroup mc) nr

/-- `can_error_sys_error_get_full`, io_can_error.c:376-418.  The entry is returned
instead of being written through pointers; on error nothing is written. -/
def getFull (q : ErrQ) (sz : Nat) : ErrQ × Err × Option ErrEntry :=
  if ¬ q.ready then (q, E.errNotInitialized, none)
  else if q.count = 0 then (q, E.errNoEntry, none)
  else if q.outIdx < sz then
    ({ q with outIdx := (q.outIdx + 1) % sz, count := q.count - 1 }, E.ok, some (q.buf q.outIdx))
  else ({ q with ub := true }, E.ok, none)

/-- `can_error_sys_error_peek`, io_can_error.c:431-467 (returns the message code).
`tooBig` stands for `ERR_SYS_ERR_QUEUE_INDEX_TOO_BIG`, which is used in line 442 but
defined nowhere in the repository. -/
def peek (q : ErrQ) (sz : Nat) (tooBig : Err) (idx : Nat) : Err × Option MsgCode :=
  if ¬ q.ready then (E.errNotInitialized, none)
  else if sz ≤ idx then (tooBig, none)
  else if q.count ≤ idx then (E.errNoEntry, none)
  else
    let start := if q.count < sz then 0 else q.inIdx
    let idx := (start + idx + sz) % sz
    (E.ok, some (q.buf idx).msgCode)

/-- `can_error_sys_error_count`, io_can_error.c:475-491. -/
def getCount (q : ErrQ) : Nat := if q.ready then q.count else 0

/-- `error_syserr_send` with its four arguments, io_can_error.c:139-149: the redundant priority is not looked at (line 144). -/
def syserrSend4 (q : ErrQ) (sz : Nat) (e : Err) (prio : Prio) (nr : Nat) (_prioRedundant : Prio) : ErrQ × Err :=
  q.syserrSend sz e prio nr

/-- What `can_error_sys_error_get` writes through its pointers: module number, error number and priority, or only the error
number, computed from the local variable `msg_code` that nothing was written to (an indeterminate value). -/
inductive GetRes
  | entry (nr : Nat) (errnum : Err) (prio : Prio)
  | indeterminate
  deriving DecidableEq

/-- `can_error_sys_error_get`, io_can_error.c:351-361. -/
def get (q : ErrQ) (sz : Nat) : ErrQ × Err × GetRes :=
  match q.getFull sz with
  | (q', e, some x) => (q', e, .entry x.moduleNr (errnumOf x.msgCode) x.prio)
  | (q', e, none) => (q', e, .indeterminate)

end ErrQ

/-- The variant without `LI_CAN_SLV_SYS_ERROR_QUEUE`: the static variables of
io_can_error.c:106-111, "there is no queue so the last entry wins". -/
structure ErrLast where
  count : Nat
  entry : ErrEntry

/-- io_can_error.c:323-334 (with the FATAL branch 220-225). -/
def ErrLast.sendFull (q : ErrLast) (msgCode : MsgCode) (addInfo : BitVec 8) (prio : Prio)
    (group subgroup : BitVec 8) (nr : Nat) : ErrLast × Err :=
  if prio = prioFatal then (q, E.ok)
  else (⟨1, ⟨msgCode, prio, nr, addInfo, subgroup + (group <<< 4)⟩⟩, E.ok)

/-- io_can_error.c:409-416: always answers OK, also if nothing is stored. -/
def ErrLast.getFull (q : ErrLast) : ErrLast × Err × ErrEntry :=
  (⟨0, q.entry⟩, E.ok, q.entry)

/-- `can_error_sys_error_count`, io_can_error.c:475-491, without the queue. -/
def ErrLast.getCount (q : ErrLast) : Nat := q.count

/-- `error_syserr_send`, io_can_error.c:139-149, without the queue. -/
def ErrLast.syserrSend (q : ErrLast) (e : Err) (prio : Prio) (nr : Nat) : ErrLast × Err :=
  let mc := canMsgCode e
  q.sendFull mc 0 prio (extractGroup mc) (extractSubgroup mc) nr

/-- `can_error_sys_error_get`, io_can_error.c:351-361, without the queue. -/
def ErrLast.get (q : ErrLast) : ErrLast × Err × ErrQ.GetRes :=
  let (q', e, x) := q.getFull
  (q', e, .entry x.moduleNr (errnumOf x.msgCode) x.prio)

/-- The static variables at program start, io_can_error.c:106-111. -/
def ErrLast.boot : ErrLast := ⟨0, .zero⟩

end LiCan
