import Verif.Lemmas.NodeHw
import Verif.Props.SearchReport
import Verif.Props.Sys
import Verif.Props.Upload
/-! # Frames the driver does not take -/
namespace LiCan

namespace Spec

/-- number of frames in a piece of the log which the driver refused -/
def refused : List Ev → Nat
  | [] => 0
  | .frame _ false :: l => refused l + 1
  | _ :: l => refused l

/-- number of frames in a piece of the log which the driver took -/
def tookFrames : List Ev → Nat
  | [] => 0
  | .frame _ true :: l => tookFrames l + 1
  | _ :: l => tookFrames l

/-- `k` errors 0x5078 of the lowest level but one, reported under the number `nr` with `error_syserr_send` -/
def report5078 (env : Env) (nr : Nat) : Nat → ErrQ → ErrQ
  | 0, q => q
  | k + 1, q => report5078 env nr k (if env.sysErr then (q.syserrSend env.qSize 0x5078#16 4 nr).1 else q)

end Spec

namespace Node
open Spec

theorem refused_append (a b : List Ev) : refused (a ++ b) = refused a + refused b := by
  induction a with
  | nil => simp [refused]
  | cons e a ih =>
    cases e with
    | frame f ok => cases ok <;> simp [refused, ih] <;> omega
    | _ => simpa [refused] using ih

theorem report5078_succ (env : Env) (nr k : Nat) : ∀ q, report5078 env nr (k + 1) q =
    if env.sysErr then ((report5078 env nr k q).syserrSend env.qSize 0x5078#16 4 nr).1 else report5078 env nr k q := by
  induction k with
  | zero => intro q; rfl
  | succ k ih => intro q; rw [report5078, ih]; rfl

theorem send_report (env : Env) (x : Node) (f : Frame) :
    (report env (send env x f).1 (send env x f).2).log = .frame f (env.sendOk x.sendN) :: x.log ∧
    (report env (send env x f).1 (send env x f).2).errq =
      (if env.sendOk x.sendN then x.errq
       else if env.sysErr then (x.errq.syserrSend env.qSize 0x5078#16 4 (x.rows 0).nr).1 else x.errq) ∧
    (report env (send env x f).1 (send env x f).2).rows = x.rows := by
  unfold send report
  dsimp only
  cases env.sendOk x.sendN <;> cases env.sysErr <;> exact ⟨rfl, rfl, rfl⟩

/-- C112, as far as it holds, for process data: with conversions that succeed, answering a process request puts exactly one error 0x5078
into the error queue for each frame the driver refused, and no other. -/
theorem C112_process_data_partial (env : Env) (n n' : Node)
    (hc : ∀ k app dlc buf, (env.txConv k app dlc buf).2 = E.ok) (h : sendProcessData env n = some n') :
    ∃ evs, n'.log = evs ++ n.log ∧ n'.errq = report5078 env (n.rows 0).nr (refused evs) n.errq := by
  have key : ∃ evs, n'.log = evs ++ n.log ∧ n'.errq = report5078 env (n.rows 0).nr (refused evs) n.errq ∧ n'.rows = n.rows := by
    refine sendRun_ind env (fun x => ∃ evs, x.log = evs ++ n.log ∧
      x.errq = report5078 env (n.rows 0).nr (refused evs) n.errq ∧ x.rows = n.rows) ?_ 32 _ ⟨[], rfl, rfl, rfl⟩ n' h
    rintro x tp obj buf ⟨evs, h1, h2, h3⟩
    unfold sendOne
    dsimp only
    split
    · exact ⟨evs, h1, h2, h3⟩
    · have hok : (callTx env ((x.rows tp).txMainSync obj) (x.mem ((x.rows tp).tx obj)) ((x.rows tp).txDlc obj) buf).2 = E.ok := by
        unfold callTx
        split
        · exact hc ..
        · rfl
      rw [if_pos hok]
      dsimp only
      obtain ⟨e1, e2, e3⟩ := send_report env x ⟨x.tx.id tp obj, x.tx.dlc tp obj,
        (callTx env ((x.rows tp).txMainSync obj) (x.mem ((x.rows tp).tx obj)) ((x.rows tp).txDlc obj) buf).1.take (x.tx.dlc tp obj)⟩
      refine ⟨_ :: evs, e1.trans (by rw [h1, List.cons_append]), ?_, e3.trans h3⟩
      rw [e2]
      cases env.sendOk x.sendN
      · rw [refused, report5078_succ, ← h2, ← h3]; rfl
      · exact h2
  obtain ⟨evs, a, b, -⟩ := key
  exact ⟨evs, a, b⟩

/-- a node with two modules, and a driver that takes every second frame only -/
def exHalf : Env := { exEnv with sendOk := fun k => k % 2 == 1 }

/-- five frames, three of them refused and reported -/
example : (∀ k app dlc buf, (exHalf.txConv k app dlc buf).2 = E.ok) ∧
    (sendProcessData exHalf (run exHalf (Node.init exHalf (boot exMem)).1 exOps)).map (fun n =>
      (refused n.log, tookFrames n.log, (pending exHalf.qSize n.errq).map fun x => (x.msgCode, x.moduleNr))) =
    some (3, 2, [(0x75000078#32, 5), (0x75000078#32, 5), (0x75000078#32, 5)]) :=
  ⟨fun _ _ _ _ => rfl, by decide +kernel⟩

end Node

namespace Stack
open Spec
open Node (exMem exEnv exOps)

/-- C112, as far as it holds, for asynchronous data: a frame accepted for transmission which the driver refuses at once waits
as the youngest of the queue, and the refusal is reported. -/
theorem C112_async_data_partial (env : AEnv) (s : Stack) (nr dlc : Nat) (src : List Byte) (hs : s.rc.state ≠ .on)
    (hf : env.sendOk s.slv.node.sendN = false) (he : (s.enqueue env nr dlc src).2 = E.ok) :
    let s' := (s.enqueue env nr dlc src).1
    s'.q.state = s.q.state + 1 ∧ s'.q.read = s.q.read ∧ s'.q.buf s.q.write = ⟨asyncDataTxId nr, dlc, src.take dlc⟩ ∧
    (∀ i, i ≠ s.q.write → s'.q.buf i = s.q.buf i) ∧
    errq s' = report5078 env.toEnv (firstNr s) 1 (errq s) := by
  unfold enqueue at he ⊢
  by_cases h1 : 4 ≤ s.q.state
  · rw [if_pos h1] at he; exact absurd he (show ¬ (_ : Err) = (0#16 : Err) from by simp)
  rw [if_neg h1] at he ⊢
  by_cases h2 : 8 < dlc
  · rw [if_pos h2] at he; exact absurd he (show ¬ (_ : Err) = (0#16 : Err) from by simp)
  rw [if_neg h2]
  dsimp only
  unfold handlerTx
  rw [if_pos (show s.rc.state ≠ .on from hs), if_pos (Nat.succ_pos _)]
  dsimp only
  unfold handleQ
  rw [if_pos (Nat.succ_pos _)]
  dsimp only
  generalize upd s.q.buf s.q.write ⟨asyncDataTxId nr, dlc, src.take dlc⟩ s.q.read = f
  obtain ⟨e1, e2, e3⟩ := Node.send_report env.toEnv s.slv.node f
  have e0 : (s.slv.node.send env.toEnv f).2 = E.msgSend := by
    unfold Node.send; dsimp only; rw [hf]; rfl
  rw [e0, if_neg (by decide)]
  dsimp only
  rw [e0, hf] at e2
  refine ⟨rfl, rfl, ?_, ?_, ?_⟩
  · show upd s.q.buf s.q.write _ _ = _
    unfold upd; rw [if_pos rfl]
  · intro i hi
    show upd s.q.buf s.q.write _ _ = _
    unfold upd; rw [if_neg hi]
  · exact e2

/-- a driver that takes nothing -/
def exDead : AEnv := { exA with sendOk := fun _ => false }

/-- C112: an asynchronous frame is refused, kept and reported -/
example : exS.rc.state ≠ .on ∧ exDead.sendOk exS.slv.node.sendN = false ∧ (exS.enqueue exDead 5 2 [7, 8]).2 = E.ok ∧
    (pending exDead.qSize (errq (exS.enqueue exDead 5 2 [7, 8]).1)).map (fun x => (x.msgCode, x.moduleNr)) = [(0x75000078#32, 5)] := by
  decide +kernel

/-- C112 is false for the messages of the error queue: an error waits, the answers to a status request are refused by the
driver, and the error is gone: it was not transmitted, is not waiting, and the refusal is not reported. -/
theorem C112_counterexample : ∃ s s' : Slave, Slave.SReach exDead.toEnv s ∧ (pending exDead.qSize s.node.errq).length = 1 ∧
    Slave.sysMsg exDead.toEnv s 5 8 [1, 0, 0, 0, 0, 0, 0, 0] = some (s', E.ok) ∧
    tookFrames s'.node.log = 0 ∧ refused s.node.log + 2 = refused s'.node.log ∧ (pending exDead.qSize s'.node.errq).length = 0 := by
  have key : ((Slave.run exDead.toEnv (Slave.init exDead.toEnv (Slave.boot exMem) 250).1
      ((exOps.map In.table) ++ [.frame 0 2 7 0x012 []])).bind fun s =>
      (Slave.sysMsg exDead.toEnv s 5 8 [1, 0, 0, 0, 0, 0, 0, 0]).map fun r =>
        ((pending exDead.qSize s.node.errq).length, r.2, tookFrames r.1.node.log, decide (refused s.node.log + 2 = refused r.1.node.log),
          (pending exDead.qSize r.1.node.errq).length)) = some (1, E.ok, 0, true, 0) := by decide +kernel
  obtain ⟨s, h1, h2⟩ := Option.bind_eq_some_iff.1 key
  obtain ⟨⟨s', e⟩, h3, h4⟩ := Option.map_eq_some_iff.1 h2
  simp only [Prod.mk.injEq] at h4
  obtain ⟨a, rfl, c, d, f⟩ := h4
  refine ⟨s, s', ⟨exMem, 250, _, by decide +kernel, ?_, h1⟩, a, h3, c, of_decide_eq_true d, f⟩
  intro i hi
  simp only [exOps, List.map_cons, List.map_nil, List.cons_append, List.nil_append, List.mem_cons, List.not_mem_nil,
    or_false] at hi
  rcases hi with h | h | h <;> rw [h] <;> simp [Slave.BasicIn, Basic, Node.exTpl, Slave.at8]

/-- a driver that has room for one frame -/
def exOne : AEnv := { exA with sendOk := fun k => k == 0 }

/-- C112 is false for uploads: of a block of nine bytes one segment is transmitted, the second one and the end of the block
are refused.  The function returns as if all had been sent, and no error is reported. -/
theorem C112_counterexample_upload : ∃ s, ulData exOne 10 exUp [1, 2, 3, 4, 5, 6, 7, 8, 9] = some s ∧
    exFrames s = [Spec.ctrlFrame 5 [0x15, 1, 2, 3, 4, 5, 6, 7]] ∧ refused s.slv.node.log = 2 ∧ s.x.bytes = 9 ∧ s.x.objs = 2 ∧
    (pending exOne.qSize (errq s)).length = (pending exOne.qSize (errq exUp)).length := by
  have key : ((ulData exOne 10 exUp [1, 2, 3, 4, 5, 6, 7, 8, 9]).map fun s => decide (
    exFrames s = [Spec.ctrlFrame 5 [0x15, 1, 2, 3, 4, 5, 6, 7]] ∧ refused s.slv.node.log = 2 ∧ s.x.bytes = 9 ∧ s.x.objs = 2 ∧
    (pending exOne.qSize (errq s)).length = (pending exOne.qSize (errq exUp)).length)) = some true := by decide +kernel
  obtain ⟨s, h1, h2⟩ := Option.map_eq_some_iff.1 key
  exact ⟨s, h1, of_decide_eq_true h2⟩

end Stack
end LiCan
