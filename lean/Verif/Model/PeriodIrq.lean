import Verif.Model.Slave
/-!
# The process period with the receive interrupt inside the calls of the background

`li_can_slv_sync_trigger_process_periode` (source/sync/io_can_sync.c:1250-1269, called by
`li_can_slv_process`) and `li_can_slv_sync_get_process_periode` (1072-1080, called by the application) run in the
background, `can_sync_rx_process_main` (459-475) in the receive interrupt.  All use `can_sync.pr_periode` and
`can_sync.main_pr_timestamp`, none of them blocks the interrupt.

The calls are cut at every access to the two variables and at the reading of the clock.

Simplifications
* A 32 bit variable is read and written in one access.
* The interrupt is not interrupted.
* Between a request's frames nothing else of `Slave` matters here; `C137_steps` relates the calls to it.
-/
namespace LiCan

/-- place in a call of the background -/
inductive PerPc
  /-- trigger entered; `early`: the time stamp is read before the clock (C leaves the order of the operands of
  `can_port_get_system_ticks() - can_sync.main_pr_timestamp`, line 1257, to the compiler) -/
  | trig (early : Bool)
  /-- clock read, time stamp not yet -/
  | clock (t : Nat)
  /-- time stamp read, clock not yet -/
  | load (st : Nat)
  /-- `dtime` computed (1257-1263) -/
  | diff (d : Nat)
  /-- found larger than the period (1265) -/
  | write (d : Nat)
  /-- get entered -/
  | get
  /-- found larger than the maximum (1074) -/
  | clamp
  /-- before the last reading (1079) -/
  | ret
deriving DecidableEq, Repr

structure PerIrq where
  /-- `main_pr_timestamp` -/
  stamp : Nat
  /-- `pr_periode` -/
  per   : Nat
  pc    : Option PerPc := none
  /-- values returned to the application, newest first -/
  out   : List Nat := []

namespace PerIrq

inductive PEv
  /-- the background calls the trigger function -/
  | trigger (early : Bool)
  /-- the application asks for the period -/
  | ask
  /-- the background goes on; `t`: what the clock shows -/
  | main (t : Nat)
  /-- a process request arrives; `t1`, `t2`: what the clock shows at lines 467 and 468 -/
  | request (t1 t2 : Nat)
deriving DecidableEq, Repr

/-- `dtime` from the clock and the time stamp, io_can_sync.c:1255-1263 -/
def dtime (env : Env) (t st : Nat) : Nat :=
  let maxT := u16 (env.ms2t env.perMax)
  let d := Slave.sub32 t st
  env.t2ms (if maxT < d then maxT else d)

/-- the background goes on by one access -/
def main (env : Env) (w : PerIrq) (t : Nat) : PerIrq :=
  match w.pc with
  | none => w
  | some (.trig false) => { w with pc := some (.clock t) }
  | some (.trig true) => { w with pc := some (.load w.stamp) }
  | some (.clock c) => { w with pc := some (.diff (dtime env c w.stamp)) }
  | some (.load st) => { w with pc := some (.diff (dtime env t st)) }
  | some (.diff d) => { w with pc := if w.per < d then some (.write d) else none }
  | some (.write d) => { w with per := d, pc := none }
  | some .get => { w with pc := some (if env.perMax < w.per then .clamp else .ret) }
  | some .clamp => { w with per := env.perMax, pc := some .ret }
  | some .ret => { w with out := w.per :: w.out, pc := none }

/-- One event. -/
def step (env : Env) (w : PerIrq) : PEv → PerIrq
  | .trigger early => if w.pc = none then { w with pc := some (.trig early) } else w
  | .ask => if w.pc = none then { w with pc := some .get } else w
  | .main t => w.main env t
  | .request t1 t2 => { w with per := env.t2ms (Slave.sub32 t1 w.stamp), stamp := t2 }

def run (env : Env) (w : PerIrq) (es : List PEv) : PerIrq := es.foldl (step env) w

end PerIrq
end LiCan
