import Verif.Spec.ErrFifo
/-!
# The system error queue under interrupts

`can_error_sys_error_send_full` and `can_error_sys_error_get_full`, source/error/io_can_error.c:181-342
and 376-418, one access to the (volatile) queue per step.  One context, the *task*, executes a call
step by step; between any two steps an interrupt may execute complete calls.  The source has no lock
there (`@todo is here a irq lock needed`, lines 235, 393).

Simplifications: interrupts are not interrupted themselves; `can_error_init` (213) is one step together
with the test before it; if `atomic`, `++count` and `count--` are one step (a single instruction of the
target), otherwise a read and a write; the test `count < SIZE` (251, 270) is one step with the increment.
-/
namespace LiCan
namespace ErrIrq
open Spec

/-- the `k`-th member in the order of lines 255-259, 275-279 and 398-402 -/
def setMember (k : Nat) (dst src : ErrEntry) : ErrEntry :=
  if k = 0 then { dst with msgCode := src.msgCode }
  else if k = 1 then { dst with moduleNr := src.moduleNr }
  else if k = 2 then { dst with prio := src.prio }
  else if k = 3 then { dst with addInfo := src.addInfo }
  else { dst with group := src.group }

/-- The call the task is executing.
`get`: 0: test of the state (382), 1: test of the count (386), 2..6: reading the members (398-402),
7: `out_next_idx` (403), 8, 9: `count--` (404).
`send`: 0: initialisation and FATAL (211-220), 1: `free` (240-242), 2, 3: `++count` (251-254, 270-273),
4..8: writing the members (255-259, 275-279), 9: `in_next_idx` (260, 280).  `mark`: it is the entry
"queue full" that is being stored.  `old` is not in the source: how many of the entries found at line 240
are still stored. -/
inductive Task
  | idle
  | get (pc reg : Nat) (e : ErrEntry)
  | send (pc reg : Nat) (e : ErrEntry) (free : Int) (mark : Bool) (old : Nat)

/-- State.  `log` is not in the source: the operations in the order in which they take effect, with what
they return. -/
structure St where
  q    : ErrQ
  task : Task
  log  : List (ErrOp × ErrOut)

/-- What happens next. -/
inductive Act
  | irq (op : ErrOp)   -- an interrupt executes a complete call
  | start (op : ErrOp) -- the task calls one of the two functions
  | cpu                -- the task makes a step

/-- the report an entry belongs to (`entryOf` gives the entry back) -/
def reportOf (e : ErrEntry) : ErrOp := .report e.msgCode e.addInfo e.prio 0 e.group e.moduleNr

/-- One step of `can_error_sys_error_get_full`. -/
def getStep (atomic : Bool) (sz : Nat) (s : St) (pc reg : Nat) (e : ErrEntry) : St :=
  if pc = 0 then                                                                            -- 382
    if s.q.ready then { s with task := .get 1 reg e }
    else { s with task := .idle, log := s.log ++ [(.get, (E.errNotInitialized, none))] }
  else if pc = 1 then                                                                       -- 386
    if s.q.count = 0 then { s with task := .idle, log := s.log ++ [(.get, (E.errNoEntry, none))] }
    else { s with task := .get 2 reg e }
  else if pc < 7 then                                                                       -- 398-402
    if s.q.outIdx < sz then { s with task := .get (pc + 1) reg (setMember (pc - 2) e (s.q.buf s.q.outIdx)) }
    else { s with q := { s.q with ub := true } }
  else if pc = 7 then                                                                       -- 403
    { s with q := { s.q with outIdx := (s.q.outIdx + 1) % sz }, task := .get 8 reg e }
  else if pc = 8 ∧ atomic = false then { s with task := .get 9 s.q.count e }                -- 404, read
  else                                                                                      -- 404, write
    { s with q := { s.q with count := (if pc = 8 then s.q.count else reg) - 1 }
             task := .idle, log := s.log ++ [(.get, (E.ok, some e))] }

/-- One step of `can_error_sys_error_send_full`. -/
def sendStep (atomic : Bool) (sz : Nat) (s : St) (pc reg : Nat) (e : ErrEntry) (free : Int) (mark : Bool)
    (old : Nat) : St :=
  if pc = 0 then                                                                            -- 211-225
    let q := if s.q.ready then s.q else s.q.init sz
    if e.prio = prioFatal then { s with q := q, task := .idle, log := s.log ++ [(reportOf e, (E.ok, none))] }
    else { s with q := q, task := .send 1 reg e free mark old }
  else if pc = 1 then                                                                       -- 240-247
    let free : Int := (sz : Int) - ((s.q.count : Int) + 2)
    if free < 0 then { s with task := .idle, log := s.log ++ [(reportOf e, (E.errQueueFull, none))] }
    else { s with task := .send 2 reg e free mark s.q.count
                  log := s.log ++ [(reportOf e, (if free = 0 then E.errQueueFull else E.ok, none))] }
  else if pc = 2 then                                                                       -- 251-254, 270-273
    if s.q.count < sz then
      if atomic then { s with q := { s.q with count := s.q.count + 1 }, task := .send 4 reg e free mark old }
      else { s with task := .send 3 s.q.count e free mark old }
    else { s with task := .send 4 reg e free mark old }
  else if pc = 3 then { s with q := { s.q with count := reg + 1 }, task := .send 4 reg e free mark old }
  else if pc < 9 then                                                                       -- 255-259, 275-279
    if s.q.inIdx < sz then
      { s with q := { s.q with buf := upd s.q.buf s.q.inIdx (setMember (pc - 4) (s.q.buf s.q.inIdx) e) }
               task := .send (pc + 1) reg e free mark old }
    else { s with q := { s.q with ub := true }, task := .send (pc + 1) reg e free mark old }
  else if mark then { s with q := { s.q with inIdx := s.q.inIdx + 1 }, task := .idle }      -- 280
  else                                                                                      -- 260-267
    { s with q := { s.q with inIdx := (s.q.inIdx + 1) % sz }
             task := if free = 0 then
                 let mc := canMsgCode E.errQueueFull
                 .send 2 reg ⟨mc, prioCritical, e.moduleNr, 0, extractGroupSubgroup mc⟩ free true old
               else .idle }

/-- A complete call by an interrupt. -/
def irqStep (sz : Nat) (s : St) : ErrOp → St
  | .report mc ai p g sg nr =>
    let r := s.q.sendFull sz mc ai p g sg nr
    { s with q := r.1, log := s.log ++ [(.report mc ai p g sg nr, (r.2, none))] }
  | .get =>
    let r := s.q.getFull sz
    { s with q := r.1, log := s.log ++ [(.get, r.2)]
             task := match s.task with
               | .send pc reg e free mark old => .send pc reg e free mark (old - 1)
               | t => t }

/-- The next step of the machine; the task starts a call only when it is idle. -/
def step (atomic : Bool) (sz : Nat) (s : St) : Act → St
  | .irq op => irqStep sz s op
  | .start op =>
    match s.task, op with
    | .idle, .get => { s with task := .get 0 0 .zero }
    | .idle, .report mc ai p g sg nr => { s with task := .send 0 0 ⟨mc, p, nr, ai, sg + (g <<< 4)⟩ 0 false 0 }
    | _, _ => s
  | .cpu =>
    match s.task with
    | .idle => s
    | .get pc reg e => getStep atomic sz s pc reg e
    | .send pc reg e free mark old => sendStep atomic sz s pc reg e free mark old

/-- A schedule. -/
def run (atomic : Bool) (sz : Nat) : St → List Act → St
  | s, [] => s
  | s, a :: as => run atomic sz (step atomic sz s a) as

/-- at program start -/
def boot : St := ⟨.boot, .idle, []⟩

end ErrIrq
end LiCan
