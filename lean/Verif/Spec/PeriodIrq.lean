import Verif.Model.PeriodIrq
/-!
# What the application should be told about the process period

Kept from the arrivals of the requests, the readings of the clock and the calls; the variable `pr_periode` of
the code is not used.
-/
namespace LiCan.Spec
open PerIrq

/-- difference of two readings of a 32 bit clock -/
def ticks (a b : Nat) : Nat := (((a : Int) - b) % 4294967296).toNat

structure Watch where
  /-- milliseconds between the last two requests -/
  iv    : Nat
  /-- reading of the clock at the last request -/
  last  : Nat
  /-- longest time without a request found by a trigger call since the last request -/
  seen  : Nat := 0
  /-- reading of the clock by the running trigger call, if after the last request -/
  cur   : Option Nat := none
  /-- the last request came between two calls, or at the beginning of one -/
  apart : Bool
deriving DecidableEq, Repr

/-- no call, or one that has not read anything yet -/
def AtEntry : Option PerPc → Bool
  | none | some (.trig _) | some .get => true
  | _ => false

/-- time without a request, as a trigger call finds it: at most the maximum -/
def silence (env : Env) (t last : Nat) : Nat :=
  env.t2ms (min (u16 (env.ms2t env.perMax)) (ticks t last))

/-- the trigger call has both its readings -/
def Watch.done (env : Env) (g : Watch) : Watch :=
  match g.cur with
  | none => g
  | some t => { g with seen := max g.seen (silence env t g.last), cur := none }

def Watch.next (env : Env) (g : Watch) (w : PerIrq) : PEv → Watch
  | .request t1 t2 => { iv := env.t2ms (ticks t1 g.last), last := t2, seen := 0, cur := none, apart := AtEntry w.pc }
  | .main t =>
    match w.pc with
    | some (.trig false) | some (.load _) => { g with cur := some t }
    | some (.diff _) => g.done env
    | _ => g
  | _ => g

/-- events with the watch -/
def watch (env : Env) (w : PerIrq) (g : Watch) : List PEv → PerIrq × Watch
  | [] => (w, g)
  | e :: es => watch env (w.step env e) (g.next env w e) es

end LiCan.Spec
