import Verif.Lemmas.ErrFifo
/-! # Properties of the system error queue (C19 - C22) -/
namespace LiCan
open Spec

/-- C19.  As long as the queue never fills up, reports and retrievals behave exactly as on a
FIFO list: same return codes, same entries in the same order, for every queue size and every
interleaving of reports and retrievals starting at program start. -/
theorem C19_error_queue_fifo (sz : Nat) (h : List ErrOp) (hf : neverFull sz {} h) :
    (ErrQ.boot.run sz h).2 = (Fifo.run sz {} h).2 :=
  (errSim_run h (errSim_boot sz) (neverFull_not_overruns h hf)).1

/-- C19 holds beyond that: it is enough that the history is not one of the dangerous ones
of C20 (the queue may fill up; then the marker entry is delivered in its place). -/
theorem C19_error_queue_fifo_strong (sz : Nat) (h : List ErrOp)
    (hno : overruns sz {} false h = false) :
    (ErrQ.boot.run sz h).2 = (Fifo.run sz {} h).2 :=
  (errSim_run h (errSim_boot sz) hno).1

/-- two reports and a retrieval on the default size -/
def exampleHistory : List ErrOp :=
  [.report 0x75000011#32 0 4 7 5 9, .report 0x75000012#32 0 4 7 5 10, .get]

example : neverFull 16 {} exampleHistory := by
  simp [exampleHistory, neverFull, ErrOp.takesLast, Fifo.step]

example : (ErrQ.boot.run 16 exampleHistory).2 =
    [(0, none), (0, none), (0, some ⟨0x75000011#32, 4, 9, 0, 0x75#8⟩)] := by decide

/-- C20 (exact characterisation).  A history touches memory outside the queue if and only if
it is one of the `overruns` histories: the queue was completely filled when the number of
retrieved errors was a multiple of the size, and afterwards another report was accepted. -/
theorem C20_error_queue_oob_iff (sz : Nat) (h : List ErrOp) :
    (ErrQ.boot.run sz h).1.ub = true ↔ overruns sz {} false h = true := by
  constructor
  · intro hu
    cases hov : overruns sz {} false h
    · obtain ⟨_, e, hs⟩ := errSim_run h (errSim_boot sz) hov
      rw [hs.noub] at hu
      exact absurd hu (by simp)
    · rfl
  · exact errSim_overrun h (errSim_boot sz)

/-- C20, the safe part: histories in which the queue never fills up never touch memory
outside the queue.  Missing for the full claim: it is false, see
`C20_error_queue_oob_counterexample`. -/
theorem C20_error_queue_in_bounds_partial (sz : Nat) (h : List ErrOp) (hf : neverFull sz {} h) :
    (ErrQ.boot.run sz h).1.ub = false := by
  have := neverFull_not_overruns h hf
  have h2 := C20_error_queue_oob_iff sz h
  cases hu : (ErrQ.boot.run sz h).1.ub
  · rfl
  · rw [h2.mp hu] at this; exact absurd this (by simp)

/-- The bad history for the default queue size 16: 15 reports, 2 retrievals, 1 report. -/
def overrunHistory : List ErrOp :=
  List.replicate 15 (.report 0x75000011#32 0 4 7 5 9) ++ [.get, .get] ++
    [.report 0x75000012#32 0 4 7 5 9]

/-- C20 is false of the code: a concrete history writes out of bounds. -/
theorem C20_error_queue_oob_counterexample : (ErrQ.boot.run 16 overrunHistory).1.ub = true := by
  decide +kernel

/-- C21a.  The number of stored errors never exceeds the queue size, for every history. -/
theorem C21_error_count_bounded (sz : Nat) (h : List ErrOp) :
    (ErrQ.boot.run sz h).1.getCount ≤ sz := by
  have := ErrQ.run_count (sz := sz) h (q := ErrQ.boot) (Nat.zero_le _)
  unfold ErrQ.getCount
  split
  · exact this
  · exact Nat.zero_le _

/-- C21b.  A report into an initialised queue with fewer than two free places changes nothing
and says QUEUE_FULL (unless it is FATAL, which is never stored). -/
theorem C21_error_report_refused (sz : Nat) (q : ErrQ) (hr : q.ready = true)
    (hfull : sz < q.getCount + 2) (mc : MsgCode) (ai : BitVec 8) (p : Prio) (hp : p ≠ 15)
    (g sg : BitVec 8) (nr : Nat) :
    q.sendFull sz mc ai p g sg nr = (q, 0x506F#16) := by
  have hc : q.getCount = q.count := by simp [ErrQ.getCount, hr]
  have hneg : (sz : Int) - ((q.count : Int) + 2) < 0 := by omega
  simp [ErrQ.sendFull, hr, hp, hneg]

/-- C21c.  A report into a queue with exactly two free places stores the error followed by the
marker, and says QUEUE_FULL: in every non-dangerous history the `k`-th retrieval afterwards
gives them back behind everything stored before. -/
theorem C21_error_report_fills (sz : Nat) (h : List ErrOp) (hno : overruns sz {} false h = false)
    (mc : MsgCode) (ai : BitVec 8) (p : Prio) (g sg : BitVec 8) (nr : Nat)
    (hno' : overruns sz {} false (h ++ [.report mc ai p g sg nr]) = false) (hp : p ≠ 15)
    (items : List ErrEntry) (hitems : (Fifo.run sz {} h).1.items = items)
    (hlen : items.length + 2 = sz) :
    (Fifo.run sz {} (h ++ [.report mc ai p g sg nr])).1.items
        = items ++ [entryOf mc ai p g sg nr, fullMarker nr] ∧
    (ErrQ.boot.run sz (h ++ [.report mc ai p g sg nr])).1.getCount = sz ∧
    (ErrQ.boot.run sz (h ++ [.report mc ai p g sg nr])).2
        = (ErrQ.boot.run sz h).2 ++ [(0x506F#16, none)] := by
  have runApp : ∀ (h : List ErrOp) (f : Fifo) (op : ErrOp),
      Fifo.run sz f (h ++ [op]) =
        (((Fifo.run sz f h).1.step sz op).1, (Fifo.run sz f h).2 ++ [((Fifo.run sz f h).1.step sz op).2]) := by
    intro h
    induction h with
    | nil => intro f op; rfl
    | cons o os ih => intro f op; simp only [List.cons_append, Fifo.run, ih]
  have e1 := runApp h {} (.report mc ai p g sg nr)
  have nlt : ¬ (sz < items.length + 2) := by omega
  have e2 : (Fifo.run sz {} h).1.step sz (.report mc ai p g sg nr) =
      ({ (Fifo.run sz {} h).1 with
          items := items ++ [entryOf mc ai p g sg nr, fullMarker nr], started := true },
        (0x506F#16, none)) := by
    have hlen' : sz = items.length + 2 := hlen.symm
    simp only [Fifo.step, hp, if_false, hitems]
    rw [if_neg nlt, if_pos hlen']
  obtain ⟨s1, _⟩ := errSim_run h (errSim_boot sz) hno
  obtain ⟨s2, e, hs⟩ := errSim_run _ (errSim_boot sz) hno'
  rw [e1, e2] at s2 hs
  refine ⟨by rw [e1, e2], ?_, by rw [s2, s1]⟩
  have hr := hs.ready
  have hc := hs.count rfl
  simp only [ErrQ.getCount, hr, if_true]
  rw [hc]
  simp [hlen]

example : overruns 3 {} false [.report 1 0 4 7 5 9] = false ∧
    overruns 3 {} false ([.report 1 0 4 7 5 9] ++ [.report 2 0 4 7 5 9]) = false ∧
    (Fifo.run 3 {} [.report 1 0 4 7 5 9]).1.items.length + 2 = 3 := by decide

/-- a full queue of size 3, for `C21_error_report_refused` -/
example : (ErrQ.boot.run 3 [.report 1 0 4 7 5 9, .report 2 0 4 7 5 9]).1.ready = true ∧
    3 < (ErrQ.boot.run 3 [.report 1 0 4 7 5 9, .report 2 0 4 7 5 9]).1.getCount + 2 := by decide

/-- C22.  Expanding a 16-bit error number gives a code in the CAN group (7) whose subgroup is
the top nibble and whose code is the low 12 bits of the number. -/
theorem C22_error_number_expand (x : Err) :
    extractGroup (canMsgCode x) = 7#8 ∧
    extractSubgroup (canMsgCode x) = (x >>> 12).setWidth 8 ∧
    extractCode (canMsgCode x) = (x &&& 0x0FFF#16).setWidth 32 := by
  refine ⟨?_, ?_, ?_⟩ <;>
  · ext i hi
    simp only [canMsgCode, sgExpand, sgExpandGroup, sgExpandCode, extractGroup, extractSubgroup,
      extractCode]
    iterate 32 (rcases i with _ | i; · first | (exfalso; omega) | simp)
    exfalso; omega

/-- C22 (round trip).  The error number handed back by the error interface for a queued CAN
error is the number that was reported; in particular different numbers have different codes. -/
theorem C22_error_number_round_trip (x : Err) : errnumOf (canMsgCode x) = x := by
  ext i hi
  simp only [errnumOf, canMsgCode, sgExpand, sgExpandGroup, sgExpandCode, extractSubgroup,
    extractCode]
  iterate 16 (rcases i with _ | i; · simp)
  exfalso; omega

theorem C22_error_number_injective (x y : Err) (h : canMsgCode x = canMsgCode y) : x = y := by
  rw [← C22_error_number_round_trip x, h, C22_error_number_round_trip y]

example : canMsgCode 0x5011#16 = 0x75000011#32 := by decide

/-- C52 (`_partial`).  Peeking at position `idx` shows the `idx`-th oldest stored error, provided
the number of errors retrieved so far is a multiple of the queue size or the queue is completely
full.  Missing: for other histories it is false, see `C52_peek_counterexample`. -/
theorem C52_peek_shows_stored_partial (sz : Nat) (tooBig : Err) (h : List ErrOp)
    (hno : overruns sz {} false h = false)
    (hpos : (Fifo.run sz {} h).1.popped % sz = 0 ∨ (Fifo.run sz {} h).1.items.length = sz)
    (idx : Nat) (hidx : idx < (Fifo.run sz {} h).1.items.length) :
    (ErrQ.boot.run sz h).1.peek sz tooBig idx
      = (0x0000#16, some ((Fifo.run sz {} h).1.items[idx]).msgCode) := by
  obtain ⟨_, e, hs⟩ := errSim_run h (errSim_boot sz) hno
  generalize (ErrQ.boot.run sz h).1 = q at hs
  generalize (Fifo.run sz {} h).1 = f at hs hpos hidx
  have hst : f.started = true := by
    cases hst : f.started
    · have := (hs.fresh hst).1; rw [this] at hidx; exact absurd hidx (Nat.not_lt_zero _)
    · rfl
  have hr := hs.ready; rw [hst] at hr
  have hc := hs.count hst
  have hcap := hs.cap
  have hout := hs.out hst
  have hinn := hs.inn hst
  have hcont := hs.cont hst idx hidx
  have hsz : 0 < sz := by omega
  have holt : q.outIdx < sz := by rw [hout]; exact Nat.mod_lt _ hsz
  have hb1 : ¬ (sz ≤ idx) := by omega
  have hb2 : ¬ (q.count ≤ idx) := by omega
  simp only [ErrQ.peek, hr, not_true_eq_false, if_false, hb1, hb2]
  congr 2
  by_cases hlt : q.count < sz
  · rcases hpos with hpos | hpos
    · rw [if_pos hlt, Nat.zero_add, Nat.add_mod_right]
      rw [hout, hpos, Nat.zero_add] at hcont
      rw [hcont]
    · omega
  · rw [if_neg hlt, Nat.add_mod_right]
    have hcs : q.count = sz := by omega
    rw [← hcont]
    cases e
    · have := hinn.1 rfl
      rw [hcs, Nat.add_mod_right, Nat.mod_eq_of_lt holt] at this
      rw [this]
    · have := hinn.2 rfl
      rw [hcs, Nat.add_mod_right, Nat.mod_eq_of_lt holt] at this
      rw [this.1, this.2, Nat.zero_add, Nat.add_comm, Nat.add_mod_right]

example : overruns 16 {} false (exampleHistory.take 2) = false ∧
    (Fifo.run 16 {} (exampleHistory.take 2)).1.popped % 16 = 0 ∧
    1 < (Fifo.run 16 {} (exampleHistory.take 2)).1.items.length := by decide

/-- C52 is false in general: after two reports and one retrieval, peeking at position 0 shows the
already retrieved error instead of the one still stored. -/
theorem C52_peek_counterexample :
    (Fifo.run 16 {} exampleHistory).1.items = [⟨0x75000012#32, 4, 10, 0, 0x75#8⟩] ∧
    (ErrQ.boot.run 16 exampleHistory).1.peek 16 0xFFFF#16 0 = (0, some 0x75000011#32) := by
  decide

end LiCan
