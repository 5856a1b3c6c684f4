import Verif.Model.Basic
/-!
# Code guarded by a lock, executed in several contexts

Two places of the source guard a piece of code by a variable, because it runs in several contexts
(tasks and interrupt service routines):

* `can_async_tunnel_putc` (called by the port of the tunnel, e.g. from its interrupt) and
  `can_async_tunnel_process_tx_data` (called by `li_can_slv_process`): `can_async_tnl_lock`,
  source/async/io_can_async.c:219, 929-931, 966, 980-982, 1008;
* `can_main_hw_handler_error` (called by `li_can_slv_process`, source/core/io_can.c:307, and by the
  driver, source/arch/canpie_adapter/io_can_main_hw.c:106): `can_main_hw_handler_error_lock`,
  source/arch/canpie_adapter/io_can_main_hw_handler.c:98, 193-197, 266-268.

Every access to the lock variable is one step here; `lock++` and `lock--` are a read and a write.
A context is one activation of the function.  The activations form a stack, the running one first:
an interrupt puts a new activation on top.  `cpu 0` lets the running context make a step; `cpu i`
with `0 < i` (a time slice for another context) does not occur under pure preemption.

The guarded code itself is arbitrary: a step function `next` on local data `L` (registers, arguments)
and shared data `D`; `none` says that it has finished.
-/
namespace LiCan
namespace Lock

/-- The lock variable and the interrupt enable flag. -/
structure Sh where
  lock : Nat
  irq  : Bool
deriving DecidableEq, Repr

/-- The instructions around the guarded code: from the program counter and a register to the next
ones.  The guarded code is at 4, the return at 9. -/
abbrev Guard := Sh → Nat → Nat → Sh × Nat × Nat

/-- `can_async_tnl_lock++` (929, 980), `if (can_async_tnl_lock == 1)` (931, 982), guarded code,
`can_async_tnl_lock--` (966, 1008), io_can_async.c.  The lock is a `uint16_t`. -/
def tunnel : Guard := fun s pc r =>
  if pc = 0 then (s, 1, s.lock)                                        -- lock++: read
  else if pc = 1 then ({ s with lock := (r + 1) % 65536 }, 2, r)       -- lock++: write
  else if pc = 2 then (s, if s.lock = 1 then 4 else 5, r)              -- test, else BUSY
  else if pc = 5 then (s, 6, s.lock)                                   -- lock--: read
  else ({ s with lock := (r + 65535) % 65536 }, 9, r)                  -- lock--: write

/-- `if (lock == 0) { disable_irq; lock = 1; enable_irq; ... disable_irq; lock = 0; enable_irq }`,
io_can_main_hw_handler.c:193-197, 266-268. -/
def errorHandler : Guard := fun s pc r =>
  if pc = 0 then (s, if s.lock = 0 then 1 else 9, r)                   -- 193
  else if pc = 1 then ({ s with irq := false }, 2, r)                  -- 195
  else if pc = 2 then ({ s with lock := 1 }, 3, r)                     -- 196
  else if pc = 3 then ({ s with irq := true }, 4, r)                   -- 197
  else if pc = 5 then ({ s with irq := false }, 6, r)                  -- 266
  else if pc = 6 then ({ s with lock := 0 }, 7, r)                     -- 267
  else ({ s with irq := true }, 9, r)                                  -- 268

/-- `can_main_hw_handler_error` compiled without `LI_CAN_SLV_RECONNECT_ENA_ERR_HANDLER_LOCK`
(io_can_main_hw_handler.c:192, 265): no guard at all. -/
def unguarded : Guard := fun s pc r => (s, if pc = 0 then 4 else 9, r)

/-- An activation of the function. -/
structure Call (L : Type) where
  arg : L
  pc  : Nat
  reg : Nat
  loc : L

/-- State of the machine.  `served` and `refused` are not in the source: the activations that came to
the guarded code, in the order in which they did, and those that went past it. -/
structure St (L D : Type) where
  sh      : Sh
  data    : D
  calls   : List (Call L)
  served  : List L
  refused : List L

/-- What happens next: a new activation (interrupt), or a step of an activation. -/
inductive Act (L : Type)
  | call (arg : L)
  | cpu (i : Nat)

variable {L D : Type}

/-- One step of an activation. -/
def Call.step (g : Guard) (next : L → D → Option (L × D)) (s : St L D) (c : Call L) : St L D × Call L :=
  if c.pc = 4 then
    match next c.loc s.data with
    | some (l, d) => ({ s with data := d }, { c with loc := l })
    | none => (s, { c with pc := 5 })
  else
    let q := g s.sh c.pc c.reg
    ({ s with sh := q.1
              served := if q.2.1 = 4 then s.served ++ [c.arg] else s.served
              refused := if c.pc ≤ 3 ∧ 4 < q.2.1 then s.refused ++ [c.arg] else s.refused },
     { c with pc := q.2.1, reg := q.2.2 })

/-- One step of the machine with at most `N` nested activations (interrupt priorities); an interrupt
is held back while interrupts are disabled. -/
def St.step (g : Guard) (next : L → D → Option (L × D)) (N : Nat) (s : St L D) : Act L → St L D
  | .call a =>
    if s.sh.irq ∧ s.calls.length < N then { s with calls := ⟨a, 0, 0, a⟩ :: s.calls } else s
  | .cpu i =>
    match s.calls[i]? with
    | none => s
    | some c =>
      if c.pc = 9 then { s with calls := s.calls.eraseIdx i }
      else
        let r := c.step g next s
        { r.1 with calls := s.calls.set i r.2 }

/-- A schedule. -/
def St.run (g : Guard) (next : L → D → Option (L × D)) (N : Nat) (s : St L D) (as : List (Act L)) : St L D :=
  as.foldl (fun s a => s.step g next N a) s

/-- Before the first activation. -/
def St.init (d : D) : St L D := ⟨⟨0, true⟩, d, [], [], []⟩

end Lock

/-! ## The guarded code of the tunnel -/
namespace TnlBuf

/-- `can_async_tunnel_tmpTXobj` (io_can_async.c:146-152) and the objects handed to the asynchronous data
transmit queue so far. -/
structure Buf where
  used : Nat
  data : Nat → Byte
  out  : List (List Byte)

/-- Local data of an activation: the byte of `can_async_tunnel_putc`, a register, the line to be executed
next (0: 936; 1, 2: 937; 3: 941; 4: 946 or 990; 5: 953 or 994; 10: 987; 6: done), and whether
`can_async_tunnel_process_tx_data` finds the waiting time over and the queue takes the object. -/
structure Loc where
  byte : Byte
  go   : Bool
  reg  : Nat
  pc   : Nat

/-- an activation of `can_async_tunnel_putc(b)` -/
def Loc.putc (b : Byte) : Loc := ⟨b, true, 0, 0⟩
/-- an activation of `can_async_tunnel_process_tx_data` -/
def Loc.flush (go : Bool) : Loc := ⟨0, go, 0, 10⟩

/-- The guarded code of `can_async_tunnel_putc` (io_can_async.c:934-956) and
`can_async_tunnel_process_tx_data` (985-997) while the session is active (without a session neither
changes anything).  The retry of 944-948 is taken to end at once.  Handing the object over is one step
(the queue is used by these two functions only). -/
def next (l : Loc) (d : Buf) : Option (Loc × Buf) :=
  if l.pc = 0 then some ({ l with pc := 1 }, { d with data := upd d.data d.used l.byte })
  else if l.pc = 1 then some ({ l with pc := 2, reg := d.used }, d)
  else if l.pc = 2 then some ({ l with pc := 3 }, { d with used := (l.reg + 1) % 65536 })
  else if l.pc = 3 then some ({ l with pc := if d.used = 8 then 4 else 6 }, d)
  else if l.pc = 4 then some ({ l with pc := 5 }, { d with out := d.out ++ [(List.range d.used).map d.data] })
  else if l.pc = 5 then some ({ l with pc := 6 }, { d with used := 0 })
  else if l.pc = 10 then some ({ l with pc := if 0 < d.used ∧ l.go then 4 else 6 }, d)
  else none

end TnlBuf
end LiCan
