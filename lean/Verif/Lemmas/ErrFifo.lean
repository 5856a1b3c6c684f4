import Verif.Spec.ErrFifo
import Verif.Lemmas.Ring
/-! # Simulation of the error queue by the FIFO specification (proof helpers) -/
namespace LiCan
open Spec

namespace ErrQ

/-- One user operation on the model (output as the user sees it). -/
def step (sz : Nat) (q : ErrQ) : ErrOp → ErrQ × ErrOut
  | .report mc ai p g sg nr => let r := q.sendFull sz mc ai p g sg nr; (r.1, (r.2, none))
  | .get => q.getFull sz

/-- Run a history on the model. -/
def run (sz : Nat) : ErrQ → List ErrOp → ErrQ × List ErrOut
  | q, [] => (q, [])
  | q, op :: ops =>
    let (q', o) := q.step sz op
    let (q'', os) := run sz q' ops
    (q'', o :: os)

end ErrQ

/-- Simulation relation.  `edge` says that the write index stands one past the end. -/
structure ErrSim (sz : Nat) (q : ErrQ) (f : Fifo) (edge : Bool) : Prop where
  noub : q.ub = false
  ready : q.ready = f.started
  fresh : f.started = false → f.items = [] ∧ f.popped = 0 ∧ edge = false
  count : f.started = true → q.count = f.items.length
  cap : f.items.length ≤ sz
  out : f.started = true → q.outIdx = f.popped % sz
  inn : f.started = true →
    (edge = false → q.inIdx = (q.outIdx + q.count) % sz) ∧
    (edge = true → q.inIdx = sz ∧ (q.outIdx + q.count) % sz = 0)
  cont : f.started = true → ∀ i (h : i < f.items.length),
    q.buf ((q.outIdx + i) % sz) = f.items[i]

theorem errSim_boot (sz : Nat) : ErrSim sz ErrQ.boot {} false := by
  constructor <;> simp [ErrQ.boot]

/-- does a report get stored? -/
abbrev stores (sz : Nat) (f : Fifo) (op : ErrOp) : Bool := op.accepted sz f

/-- does a report fill the queue up (together with its marker)? -/
abbrev fills (sz : Nat) (f : Fifo) (op : ErrOp) : Bool := op.takesLast sz f

/-- evolution of the `edge` flag. -/
def edgeStep (sz : Nat) (f : Fifo) (edge : Bool) (op : ErrOp) : Bool :=
  if fills sz f op then f.popped % sz == 0
  else if stores sz f op then false else edge

theorem errSim_init {sz : Nat} {q : ErrQ} {f : Fifo} {edge : Bool} (h : ErrSim sz q f edge) :
    ErrSim sz (if q.ready then q else q.init sz) { f with started := true } edge := by
  cases hs : f.started
  · have hr := h.ready
    rw [hs] at hr
    obtain ⟨h1, h2, h3⟩ := h.fresh hs
    simp only [hr, Bool.false_eq_true, if_false]
    subst h3
    constructor <;> simp [ErrQ.init, h1, h2, h.noub]
  · have hr := h.ready
    rw [hs] at hr
    simp only [hr, if_true]
    have : ({ f with started := true } : Fifo) = f := by cases f; simp_all
    rw [this]; exact h

theorem canMsgCode_full : canMsgCode E.errQueueFull = 0x7500006F#32 := by decide
theorem group_full : extractGroupSubgroup 0x7500006F#32 = 0x75#8 := by decide

/-- The simulation step: unless a report is stored while the write index is one past the
end, model and specification agree and stay related. -/
theorem errSim_step {sz : Nat} {q : ErrQ} {f : Fifo} {edge : Bool} (h : ErrSim sz q f edge)
    (op : ErrOp) (hok : ¬ (edge = true ∧ stores sz f op = true)) :
    (q.step sz op).2 = (f.step sz op).2 ∧
    ErrSim sz (q.step sz op).1 (f.step sz op).1 (edgeStep sz f edge op) := by
  cases op with
  | report mc ai p g sg nr =>
    have hi := errSim_init h
    simp only [ErrQ.step, ErrQ.sendFull, Fifo.step]
    generalize hq' : (if q.ready then q else q.init sz) = q' at hi
    have hcount : q'.count = f.items.length := hi.count rfl
    by_cases hp : p = 15
    · subst hp
      simp [edgeStep, fills, stores, ErrOp.accepted, ErrOp.takesLast]
      exact hi
    · by_cases hfull : sz < f.items.length + 2
      · have hneg : (sz : Int) - ((q'.count : Int) + 2) < 0 := by omega
        have e1 : ¬ (f.items.length + 2 = sz) := by omega
        have e2 : ¬ (f.items.length + 2 ≤ sz) := by omega
        simp [hp, hfull, hneg, edgeStep, fills, stores, ErrOp.accepted, ErrOp.takesLast, e1, e2]
        exact hi
      · have hst : stores sz f (.report mc ai p g sg nr) = true := by
          simp [stores, ErrOp.accepted, hp]; omega
        have hedge : edge = false := by
          cases edge
          · rfl
          · exact absurd ⟨rfl, hst⟩ hok
        subst hedge
        have hneg : ¬ ((sz : Int) - ((q'.count : Int) + 2) < 0) := by omega
        have hin := (hi.inn rfl).1 rfl
        have hout := hi.out rfl
        simp only at hin hout
        have hsz : 0 < sz := by omega
        have hlt : q'.inIdx < sz := by rw [hin]; exact Nat.mod_lt _ hsz
        have holt : q'.outIdx < sz := by rw [hout]; exact Nat.mod_lt _ hsz
        have hcont := hi.cont rfl
        simp only at hcont
        have hclt : q'.count < sz := by omega
        by_cases hfill : sz = f.items.length + 2
        · have hz : ((sz : Int) - ((q'.count : Int) + 2)) = 0 := by omega
          have hlt2 : (q'.inIdx + 1) % sz < sz := Nat.mod_lt _ hsz
          have hclt2 : q'.count + 1 < sz := by omega
          have hins : (q'.inIdx + 1) % sz = (q'.outIdx + (q'.count + 1)) % sz := by
            rw [hin, Nat.mod_add_mod]; rfl
          have hfs : fills sz f (.report mc ai p g sg nr) = true := by simp [fills, ErrOp.takesLast, hp]; omega
          have hES : edgeStep sz f false (.report mc ai p g sg nr) = (f.popped % sz == 0) := by
            simp [edgeStep, hfs]
          rw [hES]
          refine ⟨?_, ?_⟩
          · simp [hp, hfull, hfill.symm, hneg, hz]
          · have hirr : ¬ (sz < sz) := Nat.lt_irrefl _
            have hirr' : ¬ ((0 : Int) < 0) := by omega
            simp only [prioFatal, hp, if_false, hz, if_true, hfill.symm, hirr, hirr',
              ErrQ.incCount, hclt, ErrQ.write, hlt, hlt2, hclt2, canMsgCode_full, group_full]
            constructor
            · exact hi.noub
            · exact hi.ready
            · simp
            · simp; omega
            · simp; omega
            · simpa using hout
            · intro _
              constructor
              · intro he
                have he : ¬ (f.popped % sz = 0) := by simpa using he
                show (q'.inIdx + 1) % sz + 1 = (q'.outIdx + (q'.count + 1 + 1)) % sz
                rw [hins]
                have h1 : q'.outIdx + (q'.count + 1) = (q'.outIdx - 1) + sz := by omega
                have h2 : q'.outIdx + (q'.count + 1 + 1) = q'.outIdx + sz := by omega
                rw [h1, h2, Nat.add_mod_right, Nat.add_mod_right, Nat.mod_eq_of_lt (by omega),
                  Nat.mod_eq_of_lt holt]
                omega
              · intro he
                have he : f.popped % sz = 0 := by simpa using he
                show (q'.inIdx + 1) % sz + 1 = sz ∧ (q'.outIdx + (q'.count + 1 + 1)) % sz = 0
                rw [hins]
                have h0 : q'.outIdx = 0 := by omega
                have h1 : q'.outIdx + (q'.count + 1) = sz - 1 := by omega
                have h2 : q'.outIdx + (q'.count + 1 + 1) = sz := by omega
                rw [h1, h2, Nat.mod_eq_of_lt (by omega), Nat.mod_self]
                omega
            · intro _ i hlen
              simp only [List.length_append, List.length_cons, List.length_nil] at hlen
              show upd (upd q'.buf q'.inIdx _) ((q'.inIdx + 1) % sz) _ ((q'.outIdx + i) % sz) = _
              rw [hins, hin]
              rcases Nat.lt_or_ge i f.items.length with hii | hii
              · rw [upd_other, upd_other, hcont i hii]
                · simp [List.getElem_append, hii]
                · intro hh
                  have := mod_inj_of_lt (by omega) (by omega) hh; omega
                · intro hh
                  have := mod_inj_of_lt (by omega) (by omega) hh; omega
              · rcases Nat.eq_or_lt_of_le hii with hii | hii
                · have : i = q'.count := by omega
                  subst this
                  rw [upd_other, upd_same]
                  · simp [List.getElem_append, hcount, entryOf]
                  · intro hh
                    have := mod_inj_of_lt (by omega) (by omega) hh; omega
                · have : i = q'.count + 1 := by omega
                  subst this
                  rw [upd_same]
                  simp [List.getElem_append, hcount, fullMarker]
        · have hz : ¬ ((sz : Int) - ((q'.count : Int) + 2)) = 0 := by omega
          have hfs : fills sz f (.report mc ai p g sg nr) = false := by simp [fills, ErrOp.takesLast, hp]; omega
          have hES : edgeStep sz f false (.report mc ai p g sg nr) = false := by
            simp [edgeStep, hfs]
          rw [hES]
          refine ⟨?_, ?_⟩
          · simp [hp, hfull, hfill, hneg, hz]
          · simp only [prioFatal, hp, if_false, hneg, hz, hfull, hfill,
              ErrQ.incCount, hclt, if_true, ErrQ.write, hlt]
            constructor
            · exact hi.noub
            · exact hi.ready
            · simp
            · simp; omega
            · simp; omega
            · simpa using hout
            · intro _
              refine ⟨fun _ => ?_, by simp⟩
              show (q'.inIdx + 1) % sz = (q'.outIdx + (q'.count + 1)) % sz
              rw [hin, Nat.mod_add_mod]; rfl
            · intro _ i hlen
              simp only [List.length_append, List.length_cons, List.length_nil] at hlen
              show upd q'.buf q'.inIdx _ ((q'.outIdx + i) % sz) = _
              rw [hin]
              rcases Nat.lt_or_ge i f.items.length with hii | hii
              · rw [upd_other, hcont i hii]
                · simp [List.getElem_append, hii]
                · intro hh
                  have := mod_inj_of_lt (by omega) (by omega) hh; omega
              · have : i = q'.count := by omega
                subst this
                rw [upd_same]
                simp [List.getElem_append, hcount, entryOf]
  | get =>
    simp only [ErrQ.step, ErrQ.getFull, Fifo.step, edgeStep, fills, stores, ErrOp.accepted, ErrOp.takesLast]
    cases hs : f.started
    · simp [h.ready, hs]; exact h
    · have hr := h.ready
      rw [hs] at hr
      have hc := h.count hs
      cases hitems : f.items with
      | nil =>
        have h0 : q.count = 0 := by rw [hc, hitems]; rfl
        simp [hr, h0]; exact h
      | cons e es =>
        have h0 : q.count = es.length + 1 := by rw [hc, hitems]; rfl
        have hcap := h.cap
        rw [hitems] at hcap
        simp only [List.length_cons] at hcap
        have hsz : 0 < sz := by omega
        have hout := h.out hs
        have holt : q.outIdx < sz := by rw [hout]; exact Nat.mod_lt _ hsz
        have hcont := h.cont hs
        have hb0 : q.buf q.outIdx = e := by
          have := hcont 0 (by simp [hitems])
          simpa [Nat.mod_eq_of_lt holt, hitems] using this
        simp only [hr, not_true_eq_false, if_false, h0, Nat.add_eq_zero_iff, Nat.one_ne_zero,
          and_false, holt, if_true, hb0, Bool.true_eq_false, Bool.false_eq_true]
        refine ⟨trivial, ?_⟩
        have hmod : ∀ k, ((q.outIdx + 1) % sz + k) % sz = (q.outIdx + (k + 1)) % sz := by
          intro k; rw [Nat.mod_add_mod]; congr 1; omega
        have hinn := h.inn hs
        constructor
        · exact h.noub
        · rfl
        · simp
        · intro _; show es.length + 1 - 1 = es.length; omega
        · show es.length ≤ sz; omega
        · intro _
          show (q.outIdx + 1) % sz = (f.popped + 1) % sz
          rw [hout, Nat.mod_add_mod]
        · intro _
          show (edge = false → q.inIdx = ((q.outIdx + 1) % sz + (es.length + 1 - 1)) % sz) ∧
            (edge = true → q.inIdx = sz ∧ ((q.outIdx + 1) % sz + (es.length + 1 - 1)) % sz = 0)
          rw [hmod]
          simp only [Nat.add_sub_cancel]
          rw [h0] at hinn
          exact hinn
        · intro _ i hlen
          show q.buf (((q.outIdx + 1) % sz + i) % sz) = _
          rw [hmod]
          have := hcont (i + 1) (by simp [hitems]; exact hlen)
          rw [this]
          simp [hitems]

/-- Storing while the write index is one past the end is an out-of-bounds write. -/
theorem errSim_ub {sz : Nat} {q : ErrQ} {f : Fifo} (h : ErrSim sz q f true)
    (op : ErrOp) (hst : stores sz f op = true) : (q.step sz op).1.ub = true := by
  cases op with
  | get => simp [stores, ErrOp.accepted] at hst
  | report mc ai p g sg nr =>
    have hs : f.started = true := by
      cases hs : f.started
      · have := (h.fresh hs).2.2; simp at this
      · rfl
    simp only [stores, ErrOp.accepted, decide_eq_true_eq] at hst
    have hr := h.ready; rw [hs] at hr
    have hc := h.count hs
    have hin := ((h.inn hs).2 rfl).1
    have hneg : ¬ ((sz : Int) - ((q.count : Int) + 2) < 0) := by omega
    have hclt : q.count < sz := by omega
    simp only [ErrQ.step, ErrQ.sendFull, hr, if_true, prioFatal, hst.1, if_false, hneg,
      ErrQ.incCount, hclt, ErrQ.write, hin, Nat.lt_irrefl]
    split
    · split <;> split <;> simp
    · rfl

theorem ErrQ.write_ub {q : ErrQ} {sz : Nat} {e : ErrEntry} (h : q.ub = true) :
    (q.write sz e).ub = true := by
  unfold ErrQ.write; split <;> simp [h]

theorem ErrQ.incCount_ub {q : ErrQ} {sz : Nat} (h : q.ub = true) :
    (q.incCount sz).ub = true := by
  unfold ErrQ.incCount; split <;> simp [h]

/-- The undefined-behaviour flag is never cleared. -/
theorem ErrQ.step_ub {sz : Nat} {q : ErrQ} (h : q.ub = true) (op : ErrOp) :
    (q.step sz op).1.ub = true := by
  cases op with
  | get => simp only [ErrQ.step, ErrQ.getFull]; repeat' split
           all_goals simp [h]
  | report mc ai p g sg nr =>
    simp only [ErrQ.step, ErrQ.sendFull]
    have h' : (if q.ready then q else q.init sz).ub = true := by split <;> simp [ErrQ.init, h]
    generalize (if q.ready then q else q.init sz) = q' at h'
    repeat' split
    all_goals first
      | exact h'
      | exact ErrQ.write_ub (ErrQ.incCount_ub h')
      | exact ErrQ.write_ub (ErrQ.incCount_ub (ErrQ.write_ub (ErrQ.incCount_ub h')))

theorem ErrQ.run_ub {sz : Nat} (ops : List ErrOp) {q : ErrQ} (h : q.ub = true) :
    (q.run sz ops).1.ub = true := by
  induction ops generalizing q with
  | nil => exact h
  | cons op ops ih => exact ih (ErrQ.step_ub h op)

/-- Whole histories: as long as the history is not an overrun, outputs agree. -/
theorem errSim_run {sz : Nat} (ops : List ErrOp) {q : ErrQ} {f : Fifo} {edge : Bool}
    (h : ErrSim sz q f edge) (hno : overruns sz f edge ops = false) :
    (q.run sz ops).2 = (f.run sz ops).2 ∧
    ∃ edge', ErrSim sz (q.run sz ops).1 (f.run sz ops).1 edge' := by
  induction ops generalizing q f edge with
  | nil => exact ⟨rfl, edge, h⟩
  | cons op ops ih =>
    simp only [overruns, Bool.or_eq_false_iff, Bool.and_eq_false_iff] at hno
    have hok : ¬ (edge = true ∧ stores sz f op = true) := by
      intro ⟨h1, h2⟩
      rcases hno.1 with h3 | h3
      · simp [h1] at h3
      · simp only [stores] at h2; simp [h2] at h3
    obtain ⟨ho, hs⟩ := errSim_step h op hok
    obtain ⟨h1, h2⟩ := ih hs hno.2
    refine ⟨?_, h2⟩
    show (q.step sz op).2 :: _ = (f.step sz op).2 :: _
    rw [ho]
    exact congrArg _ h1

theorem errSim_overrun {sz : Nat} (ops : List ErrOp) {q : ErrQ} {f : Fifo} {edge : Bool}
    (h : ErrSim sz q f edge) (hov : overruns sz f edge ops = true) :
    (q.run sz ops).1.ub = true := by
  induction ops generalizing q f edge with
  | nil => simp [overruns] at hov
  | cons op ops ih =>
    by_cases hbad : edge = true ∧ stores sz f op = true
    · obtain ⟨h1, h2⟩ := hbad
      subst h1
      exact ErrQ.run_ub ops (errSim_ub h op h2)
    · obtain ⟨_, hs⟩ := errSim_step h op hbad
      refine ih hs ?_
      simp only [overruns, Bool.or_eq_true, Bool.and_eq_true] at hov
      rcases hov with hov | hov
      · exact absurd hov hbad
      · exact hov

theorem neverFull_not_overruns {sz : Nat} (ops : List ErrOp) {f : Fifo}
    (h : neverFull sz f ops) : overruns sz f false ops = false := by
  induction ops generalizing f with
  | nil => rfl
  | cons op ops ih =>
    obtain ⟨h1, h2⟩ := h
    simp [overruns, h1, ih h2]

theorem ErrQ.step_count {sz : Nat} {q : ErrQ} (h : q.count ≤ sz) (op : ErrOp) :
    (q.step sz op).1.count ≤ sz := by
  have hw : ∀ (q : ErrQ) e, (q.write sz e).count = q.count := by
    intro q e; unfold ErrQ.write; split <;> rfl
  have hc : ∀ (q : ErrQ), q.count ≤ sz → (q.incCount sz).count ≤ sz := by
    intro q h; unfold ErrQ.incCount; split
    · show q.count + 1 ≤ sz; omega
    · exact h
  cases op with
  | get =>
    simp only [ErrQ.step, ErrQ.getFull]
    repeat' split
    · exact h
    · exact h
    · show q.count - 1 ≤ sz; omega
    · exact h
  | report mc ai p g sg nr =>
    simp only [ErrQ.step, ErrQ.sendFull]
    have h' : (if q.ready then q else q.init sz).count ≤ sz := by
      split
      · exact h
      · simp [ErrQ.init]
    generalize (if q.ready then q else q.init sz) = q' at h'
    repeat' split
    · exact h'
    · exact h'
    · show ((ErrQ.write (ErrQ.incCount _ sz) sz _)).count ≤ sz
      rw [hw]
      apply hc
      show ((ErrQ.write (ErrQ.incCount _ sz) sz _)).count ≤ sz
      rw [hw]
      exact hc _ h'
    · show ((ErrQ.write (ErrQ.incCount _ sz) sz _)).count ≤ sz
      rw [hw]
      exact hc _ h'

theorem ErrQ.run_count {sz : Nat} (ops : List ErrOp) {q : ErrQ} (h : q.count ≤ sz) :
    (q.run sz ops).1.count ≤ sz := by
  induction ops generalizing q with
  | nil => exact h
  | cons op ops ih => exact ih (ErrQ.step_count h op)

end LiCan
