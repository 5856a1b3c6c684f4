import Verif.Spec.Transfer
/-!
# Specification vocabulary for the transmit queue and the tunnel

`Obs` is what an observer of the calls and of the bus writes down during a history; `Hist` says how:
return codes of calls and frames that went out while the call was running.  The frames the tunnel hands
to the queue cannot be seen directly, so they are arbitrary here; the properties fix them.
-/
namespace LiCan.Spec

/-- frames waiting in the transmit queue, oldest first -/
def pendingOf (q : DataQ) : List Frame := (List.range q.state).map fun i => q.buf ((q.read + i) % 4)

/-- frames that were accepted by the driver, oldest first, of a log (latest first) -/
def okFrames (l : List Ev) : List Frame := l.reverse.filterMap fun e => match e with
  | .frame f true => some f
  | _ => none

/-- what was added to the log -/
def newLog (a b : Stack) : List Ev := (logOf b).take ((logOf b).length - (logOf a).length)

/-- Who asked to transmit a frame: the application, or the tunnel because eight bytes were written or
because bytes waited for too long. -/
inductive Src
  | app | full | flush
deriving DecidableEq

/-- An observer's notes: bytes the tunnel took over, frames accepted for transmission, frames that went
out. -/
structure Obs where
  wrote : List Byte := []
  acc   : List (Src × Frame) := []
  sent  : List Frame := []

/-- A history and the notes of the observer. -/
inductive Hist (env : AEnv) : Stack → Obs → Stack → Prop
  | nil (s : Stack) : Hist env s {} s
  /-- anything that touches neither the queue nor the tunnel buffer -/
  | other {a b c : Stack} {o : Obs} (h : Hist env a o b) (hq : c.q = b.q) (ht : c.tnl.tmp = b.tnl.tmp)
      (hl : c.tnl.lock = b.tnl.lock) : Hist env a o c
  | enqueue {a b : Stack} {o : Obs} (h : Hist env a o b) (nr dlc : Nat) (src : List Byte) :
      Hist env a
        { o with
          acc := o.acc ++ if (b.enqueue env nr dlc src).2 = E.ok then [(.app, ⟨asyncDataTxId nr, dlc, src.take dlc⟩)] else []
          sent := o.sent ++ okFrames (newLog b (b.enqueue env nr dlc src).1) }
        (b.enqueue env nr dlc src).1
  | putc {a b : Stack} {o : Obs} (h : Hist env a o b) (x : Byte) (f : List Frame) :
      Hist env a
        { wrote := o.wrote ++
            if (b.putc env x).2 = .done E.ok ∨ (b.putc env x).2 = .waiting then [x] else []
          acc := o.acc ++ f.map fun f => (.full, f)
          sent := o.sent ++ okFrames (newLog b (b.putc env x).1) }
        (b.putc env x).1
  | retry {a b : Stack} {o : Obs} (h : Hist env a o b) (hl : b.tnl.lock ≠ 0) (f : List Frame) :
      Hist env a
        { o with
          acc := o.acc ++ f.map fun f => (.full, f)
          sent := o.sent ++ okFrames (newLog b (b.putcRetry env).1) }
        (b.putcRetry env).1
  | flush {a b : Stack} {o : Obs} (h : Hist env a o b) (now : Nat) (f : List Frame) :
      Hist env a
        { o with
          acc := o.acc ++ f.map fun f => (.flush, f)
          sent := o.sent ++ okFrames (newLog b (b.processTx env now).1) }
        (b.processTx env now).1

/-- the payloads of the frames the tunnel handed over -/
def tunnelBytes (acc : List (Src × Frame)) : List Byte :=
  acc.flatMap fun p => if p.1 = .app then [] else p.2.data

/-- the frames handed over by the application -/
def appFrames (acc : List (Src × Frame)) : List Frame :=
  acc.flatMap fun p => if p.1 = .app then [p.2] else []

/-- the byte taken over by an input -/
def wroteBy (env : AEnv) (s : Stack) : SIn → List Byte
  | .putc x => if (s.putc env x).2 = .done E.ok ∨ (s.putc env x).2 = .waiting then [x] else []
  | _ => []

/-- the bytes written to the tunnel by a list of inputs: those whose call was not refused -/
def written (env : AEnv) : Stack → List SIn → List Byte
  | _, [] => []
  | s, i :: is => wroteBy env s i ++
    match s.step env i with
    | some s' => written env s' is
    | none => []

/-- the frame accepted from an input -/
def handedBy (env : AEnv) (s : Stack) : SIn → List Frame
  | .enqueue nr dlc src =>
    if (s.enqueue env nr dlc src).2 = E.ok then [⟨asyncDataTxId nr, dlc, src.take dlc⟩] else []
  | _ => []

/-- the frames handed over for transmission by a list of inputs: those whose call returned OK -/
def handed (env : AEnv) : Stack → List SIn → List Frame
  | _, [] => []
  | s, i :: is => handedBy env s i ++
    match s.step env i with
    | some s' => handed env s' is
    | none => []

end LiCan.Spec
