import Verif.Props.ErrApi
import Verif.Props.Reconnect
/-! # C63, C103, exact: what happens where the claims fail -/
namespace LiCan
open Spec

/-! ## C103 -/

/-- C103, exactly: whatever was reported and retrieved before, a retrieval answers OK and gives the error reported last (number
0, priority 0, module 0 if there was none), whether or not it was retrieved before; the number of errors is one exactly if
something (not FATAL) was reported since the last retrieval. -/
theorem C103_exact (os : List ApiOp) :
    (ErrLast.apiRun .boot os).get.2 =
      (E.ok, .entry ((lastReport os).getD ⟨0, 0, 0⟩).nr ((lastReport os).getD ⟨0, 0, 0⟩).e ((lastReport os).getD ⟨0, 0, 0⟩).prio) ∧
    ((ErrLast.apiRun .boot os).getCount = 1 ↔ fresh false os = true) ∧
    ((ErrLast.apiRun .boot os).getCount = 0 ↔ fresh false os = false) := by
  have hb : ErrQ.shown ErrLast.boot.entry = ⟨0, 0, 0⟩ := by decide +kernel
  have he := ErrLast.entry_run os .boot
  rw [hb] at he
  have hc := ErrLast.count_run os .boot false rfl
  refine ⟨?_, ?_, ?_⟩
  · rw [← he]; rfl
  · unfold ErrLast.getCount; rw [hc]; cases fresh false os <;> decide
  · unfold ErrLast.getCount; rw [hc]; cases fresh false os <;> decide

/-- a history without a report: a retrieval answers OK all the same -/
example : lastReport [.get, .get] = none ∧ fresh false [.send 0x5001#16 4 5] = true ∧ fresh false [.send 0x5001#16 15 5] = false := by
  decide

/-! ## C63 -/

namespace Stack

variable {env : AEnv}

/-- the stack with another state of the search -/
def withRc (s : Stack) (c : Recon) : Stack := { s with rc := c }

theorem handleQ_rc (env : AEnv) (s : Stack) (c : Recon) :
    handleQ env (s.withRc c) = ((handleQ env s).1.withRc c, (handleQ env s).2) := by
  unfold handleQ
  rw [show (s.withRc c).q = s.q from rfl, show (s.withRc c).slv = s.slv from rfl]
  split
  · dsimp only
    split <;> rfl
  · rfl

theorem handlerTx_rc (env : AEnv) {s : Stack} (hs : s.rc.state ≠ .on) {c : Recon} (hc : c.state ≠ .on) :
    handlerTx env (s.withRc c) = (handlerTx env s).withRc c := by
  unfold handlerTx
  rw [if_pos hs, if_pos (show (s.withRc c).rc.state ≠ .on from hc), show (s.withRc c).q = s.q from rfl]
  split
  · rw [handleQ_rc]; rfl
  · rfl

theorem enqueue_rc (env : AEnv) {s : Stack} (hs : s.rc.state ≠ .on) {c : Recon} (hc : c.state ≠ .on) (nr dlc : Nat)
    (src : List Byte) :
    (s.withRc c).enqueue env nr dlc src = ((s.enqueue env nr dlc src).1.withRc c, (s.enqueue env nr dlc src).2) := by
  unfold enqueue
  rw [show (s.withRc c).q = s.q from rfl]
  split
  · rfl
  · split
    · rfl
    · dsimp only
      exact congrArg (fun t => (t, E.ok)) (handlerTx_rc env (s := { s with q := { s.q with
        buf := upd s.q.buf s.q.write ⟨asyncDataTxId nr, dlc, src.take dlc⟩
        write := if s.q.write < 3 then s.q.write + 1 else 0
        state := s.q.state + 1 } }) hs hc)

theorem retry_rc (env : AEnv) {s : Stack} (hs : s.rc.state ≠ .on) {c : Recon} (hc : c.state ≠ .on) :
    (s.withRc c).putcRetry env = ((s.putcRetry env).1.withRc c, (s.putcRetry env).2) := by
  unfold putcRetry
  rw [show (s.withRc c).tnl = s.tnl from rfl, enqueue_rc env hs hc]
  dsimp only
  split <;> rfl

theorem putc_rc (env : AEnv) {s : Stack} (hs : s.rc.state ≠ .on) {c : Recon} (hc : c.state ≠ .on) (x : Byte) :
    (s.withRc c).putc env x = ((s.putc env x).1.withRc c, (s.putc env x).2) := by
  unfold putc
  rw [show (s.withRc c).tnl = s.tnl from rfl]
  split
  · rfl
  · split
    · dsimp only
      rw [show ((s.withRc c).setT fun t => { t with tmp := t.tmp ++ [x] }).tnl = (s.setT fun t => { t with tmp := t.tmp ++ [x] }).tnl
        from rfl]
      split
      · exact retry_rc env (s := (s.setT fun t => { t with tmp := t.tmp ++ [x] }).setT fun t => { t with lock := t.lock + 1 }) hs hc
      · rfl
    · rfl

theorem processTx_rc (env : AEnv) {s : Stack} (hs : s.rc.state ≠ .on) {c : Recon} (hc : c.state ≠ .on) (now : Nat) :
    (s.withRc c).processTx env now = ((s.processTx env now).1.withRc c, (s.processTx env now).2) := by
  unfold processTx
  rw [show (s.withRc c).tnl = s.tnl from rfl]
  split
  · rfl
  · split
    · split
      · rw [enqueue_rc env hs hc]
        dsimp only
        split <;> rfl
      · rfl
    · rfl

/-- C63, exactly: where a search is at its start or waits (states STARTUP and ON_IDLE), the transmit queue behaves in every
respect as if there were no search: the same frames are handed to the driver in the same order with the same outcome, the same
code is returned, the same is stored; only the state of the search, which the queue does not touch, differs.  (In the state ON
nothing is sent: `C63_queue_partial`.) -/
theorem C63_exact (s : Stack) (hs : s.rc.state = .startup ∨ s.rc.state = .idle) (nr dlc : Nat) (src : List Byte) (x : Byte) (now : Nat) :
    let free := { s with rc := { s.rc with state := .off } }
    free.enqueue env nr dlc src =
      ({ (s.enqueue env nr dlc src).1 with rc := { s.rc with state := .off } }, (s.enqueue env nr dlc src).2) ∧
    free.putc env x = ({ (s.putc env x).1 with rc := { s.rc with state := .off } }, (s.putc env x).2) ∧
    free.putcRetry env = ({ (s.putcRetry env).1 with rc := { s.rc with state := .off } }, (s.putcRetry env).2) ∧
    free.processTx env now = ({ (s.processTx env now).1 with rc := { s.rc with state := .off } }, (s.processTx env now).2) := by
  have h : s.rc.state ≠ .on := by rcases hs with h | h <;> rw [h] <;> nofun
  have hc : ({ s.rc with state := .off } : Recon).state ≠ .on := by nofun
  exact ⟨enqueue_rc env h hc nr dlc src, putc_rc env h hc x, retry_rc env h hc, processTx_rc env h hc now⟩

/-- the other half, with the bytes of the tunnel: in the state ON nothing is handed to the driver -/
theorem C63_listening (s : Stack) (hs : s.rc.state = .on) (x : Byte) :
    logOf (s.putc env x).1 = logOf s ∧ logOf (s.putcRetry env).1 = logOf s := by
  have he : ∀ (t : Stack), t.rc.state = .on → ∀ nr dlc src, logOf (t.enqueue env nr dlc src).1 = logOf t := fun t ht nr dlc src =>
    (C63_queue_partial t ht nr dlc src 0).1
  have hr : ∀ (t : Stack), t.rc.state = .on → logOf (t.putcRetry env).1 = logOf t := by
    intro t ht
    have := he t ht t.tnl.own t.tnl.tmp.length t.tnl.tmp
    unfold putcRetry
    dsimp only
    split
    · exact this
    · exact this
  refine ⟨?_, hr s hs⟩
  unfold putc
  split
  · rfl
  · split
    · dsimp only
      split
      · exact hr ((s.setT fun t => { t with tmp := t.tmp ++ [x] }).setT fun t => { t with lock := t.lock + 1 }) hs
      · rfl
    · rfl

/-- C63: a node in a startup search with the tunnel open and a frame waiting: it is handed to the driver -/
example : let s := (exS.setR fun c => { c with state := .startup })
    s.rc.state = .startup ∧ (exFrames (s.enqueue exA 5 2 [1, 2]).1).length = (exFrames s).length + 1 := by decide +kernel

end Stack
end LiCan
