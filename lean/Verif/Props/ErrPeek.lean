import Verif.Props.ErrQueue
/-! # What peeking into the error queue shows, exactly (C52) -/
namespace LiCan

namespace Spec

/-- what an operation stores in a FIFO with `sz` places: nothing, the reported error, or the error and the marker -/
def storedBy (sz : Nat) (f : Fifo) : ErrOp → List ErrEntry
  | .report mc ai p g sg nr =>
    if p = 15 ∨ sz < f.items.length + 2 then []
    else if sz = f.items.length + 2 then [entryOf mc ai p g sg nr, fullMarker nr]
    else [entryOf mc ai p g sg nr]
  | .get => []

/-- everything a history stores, in order -/
def storedAll (sz : Nat) : Fifo → List ErrOp → List ErrEntry
  | _, [] => []
  | f, op :: ops => storedBy sz f op ++ storedAll sz (f.step sz op).1 ops

/-- the last of the positions `idx`, `idx + sz`, `idx + 2 * sz`, … below `n` -/
def lastAt (sz idx n : Nat) : Nat := idx + sz * ((n - 1 - idx) / sz)

end Spec
open Spec

/-- the buffer holds the entries stored last -/
structure Slots (sz : Nat) (q : ErrQ) (f : Fifo) (S : List ErrEntry) : Prop where
  tail : S.drop f.popped = f.items
  len : S.length = f.popped + f.items.length
  buf : ∀ j (h : j < S.length), S.length ≤ j + sz → q.buf (j % sz) = S[j]

theorem storedBy_tail {sz : Nat} {f : Fifo} {S : List ErrEntry} (op : ErrOp) (ht : S.drop f.popped = f.items)
    (hl : S.length = f.popped + f.items.length) (hst : f.started = false → f.items = []) :
    (S ++ storedBy sz f op).drop (f.step sz op).1.popped = (f.step sz op).1.items ∧
    (S ++ storedBy sz f op).length = (f.step sz op).1.popped + (f.step sz op).1.items.length := by
  cases op with
  | report mc ai p g sg nr =>
    have hd : ∀ l : List ErrEntry, (S ++ l).drop f.popped = f.items ++ l := by
      intro l
      rw [List.drop_append_of_le_length (by omega), ht]
    simp only [Fifo.step, storedBy]
    by_cases hp : p = 15
    · simp [hp, ht, hl]
    · by_cases h1 : sz < f.items.length + 2
      · simp [hp, h1, ht, hl]
      · by_cases h2 : sz = f.items.length + 2
        · simp [hp, h2, hl, hd]; omega
        · simp [hp, h1, h2, hl, hd]; omega
  | get =>
    simp only [Fifo.step, storedBy, List.append_nil]
    split
    · exact ⟨ht, hl⟩
    · split
      · exact ⟨ht, hl⟩
      · rename_i e es he
        refine ⟨?_, ?_⟩
        · show S.drop (f.popped + 1) = es
          rw [← List.drop_drop, ht, he]
          rfl
        · show _ = f.popped + 1 + es.length
          rw [hl, he, List.length_cons]; omega

theorem write_other {sz : Nat} (q : ErrQ) (e : ErrEntry) (k : Nat) (h : k ≠ q.inIdx) : (q.write sz e).buf k = q.buf k := by
  unfold ErrQ.write
  split
  · exact upd_other _ _ h
  · rfl

theorem incCount_idx {sz : Nat} (q : ErrQ) : (q.incCount sz).buf = q.buf ∧ (q.incCount sz).inIdx = q.inIdx := by
  unfold ErrQ.incCount; split <;> exact ⟨rfl, rfl⟩

theorem write_idx {sz : Nat} (q : ErrQ) (e : ErrEntry) : (q.write sz e).inIdx = q.inIdx := by
  unfold ErrQ.write; split <;> rfl

/-- a report touches at most the places at and behind the write index -/
theorem sendFull_other {sz : Nat} (q : ErrQ) (hr : q.ready = true) (mc : MsgCode) (ai : BitVec 8) (p : Prio) (g sg : BitVec 8)
    (nr : Nat) (k : Nat) (h1 : k ≠ q.inIdx) (h2 : k ≠ (q.inIdx + 1) % sz ∨ ¬ sz = q.count + 2) :
    (q.sendFull sz mc ai p g sg nr).1.buf k = q.buf k := by
  unfold ErrQ.sendFull
  dsimp only
  rw [if_pos hr]
  split
  · rfl
  · split
    · rfl
    · have a := incCount_idx (sz := sz) q
      split
      · rename_i hz
        have h2 : k ≠ (q.inIdx + 1) % sz := by
          rcases h2 with h2 | h2
          · exact h2
          · exact absurd (by omega) h2
        dsimp only
        rw [write_other, (incCount_idx _).1]
        · show ((q.incCount sz).write sz _).buf k = _
          rw [write_other _ _ _ (by rw [a.2]; exact h1), a.1]
        · rw [(incCount_idx _).2]
          show k ≠ (((q.incCount sz).write sz _).inIdx + 1) % sz
          rw [write_idx, a.2]; exact h2
      · show ((q.incCount sz).write sz _).buf k = _
        rw [write_other _ _ _ (by rw [a.2]; exact h1), a.1]

theorem getFull_buf {sz : Nat} (q : ErrQ) : (q.getFull sz).1.buf = q.buf := by
  unfold ErrQ.getFull
  split
  · rfl
  · split
    · rfl
    · split <;> rfl

theorem mod_apart {a b n : Nat} (h1 : a < b) (h2 : b < a + n) : a % n ≠ b % n := by
  intro e
  have h := Nat.sub_mod_eq_zero_of_mod_eq e.symm
  rw [Nat.mod_eq_of_lt (by omega)] at h
  omega

theorem Slots.step {sz : Nat} {q : ErrQ} {f : Fifo} {edge : Bool} {S : List ErrEntry} (h : ErrSim sz q f edge) (hs : Slots sz q f S)
    (op : ErrOp) (hok : ¬ (edge = true ∧ stores sz f op = true)) :
    Slots sz (q.step sz op).1 (f.step sz op).1 (S ++ storedBy sz f op) := by
  have hn := (errSim_step h op hok).2
  obtain ⟨ht, hl⟩ := storedBy_tail (sz := sz) op hs.tail hs.len (fun e => (h.fresh e).1)
  refine ⟨ht, hl, fun j hj hjs => ?_⟩
  by_cases hp : (f.step sz op).1.popped ≤ j
  · -- an entry still stored
    obtain ⟨i, rfl⟩ := Nat.exists_eq_add_of_le hp
    have hi : i < (f.step sz op).1.items.length := by omega
    have hst : (f.step sz op).1.started = true := by
      cases e : (f.step sz op).1.started
      · rw [(hn.fresh e).1] at hi; exact absurd hi (Nat.not_lt_zero _)
      · rfl
    have hc := hn.cont hst i hi
    rw [hn.out hst, Nat.mod_add_mod] at hc
    rw [hc]
    simp only [← ht]
    exact List.getElem_drop
  · cases op with
    | get =>
      have e : storedBy sz f .get = [] := rfl
      simp only [e, List.append_nil] at hj hjs ⊢
      have hb : (q.step sz .get).1.buf = q.buf := getFull_buf q
      rw [hb]
      exact hs.buf j hj hjs
    | report mc ai p g sg nr =>
      have hpp : (f.step sz (.report mc ai p g sg nr)).1.popped = f.popped := by
        simp only [Fifo.step]
        split
        · rfl
        · split
          · rfl
          · split <;> rfl
      rw [hpp] at hp
      have hjl : j < S.length := by have := hs.len; omega
      have hlen := hl
      rw [List.length_append] at hjs hlen
      rw [List.getElem_append_left hjl, ← hs.buf j hjl (by omega)]
      have hst : f.started = true := by
        cases e : f.started
        · have := (h.fresh e).2.1; omega
        · rfl
      have hr : q.ready = true := by rw [h.ready, hst]
      have hout := h.out hst
      have hcount := h.count hst
      show (q.sendFull sz mc ai p g sg nr).1.buf (j % sz) = _
      by_cases hstore : stores sz f (.report mc ai p g sg nr) = true
      · have hedge : edge = false := by
          cases edge
          · rfl
          · exact absurd ⟨rfl, hstore⟩ hok
        have hin := (h.inn hst).1 hedge
        rw [hout, hcount, Nat.mod_add_mod, ← hs.len] at hin
        simp only [stores, ErrOp.accepted, decide_eq_true_eq] at hstore
        have hsb : (if sz = f.items.length + 2 then 2 else 1) ≤ (storedBy sz f (.report mc ai p g sg nr)).length := by
          simp only [storedBy]
          rw [if_neg (c := p = 15 ∨ sz < f.items.length + 2) (fun e => e.elim hstore.1 (by omega))]
          by_cases e : sz = f.items.length + 2
          · rw [if_pos e, if_pos e]; exact Nat.le_refl 2
          · rw [if_neg e, if_neg e]; exact Nat.le_refl 1
        refine sendFull_other q hr mc ai p g sg nr _ ?_ ?_
        · rw [hin]
          refine mod_apart hjl ?_
          split at hsb <;> omega
        · by_cases e : sz = f.items.length + 2
          · left
            rw [if_pos e] at hsb
            rw [hin, Nat.mod_add_mod]
            exact mod_apart (by omega) (by omega)
          · right; omega
      · have hno : p = 15 ∨ sz < f.items.length + 2 := by
          simp only [stores, ErrOp.accepted, decide_eq_true_eq] at hstore
          by_cases e : p = 15
          · exact .inl e
          · exact .inr (Nat.lt_of_not_le fun k => hstore ⟨e, k⟩)
        have : (q.sendFull sz mc ai p g sg nr).1 = q := by
          unfold ErrQ.sendFull
          dsimp only
          rw [if_pos hr]
          rcases hno with e | e
          · rw [if_pos e]
          · by_cases e' : p = prioFatal
            · rw [if_pos e']
            · rw [if_neg e', if_pos (by omega)]
        rw [this]

theorem Slots.run {sz : Nat} (ops : List ErrOp) : ∀ {q : ErrQ} {f : Fifo} {edge : Bool} {S : List ErrEntry}, ErrSim sz q f edge →
    Slots sz q f S → overruns sz f edge ops = false →
    Slots sz (q.run sz ops).1 (f.run sz ops).1 (S ++ storedAll sz f ops) := by
  induction ops with
  | nil => intro q f edge S _ hs _; rw [show storedAll sz f [] = [] from rfl, List.append_nil]; exact hs
  | cons op ops ih =>
    intro q f edge S h hs hno
    simp only [overruns, Bool.or_eq_false_iff, Bool.and_eq_false_iff] at hno
    have hok : ¬ (edge = true ∧ stores sz f op = true) := by
      intro ⟨h1, h2⟩
      rcases hno.1 with h3 | h3
      · simp [h1] at h3
      · simp only [stores] at h2; simp [h2] at h3
    have := ih (errSim_step h op hok).2 (hs.step h op hok) hno.2
    rw [List.append_assoc] at this
    exact this

/-- C52, exactly.  Peeking at position `idx`, with at least `idx + 1` errors waiting, shows the `idx`-th oldest of them if the queue is
completely full; otherwise it shows, among the errors stored since the start at the positions `idx`, `idx + sz`, … (waiting or
retrieved long ago), the last one. -/
theorem C52_peek_exact (sz : Nat) (tooBig : Err) (h : List ErrOp) (hno : overruns sz {} false h = false)
    (idx : Nat) (hidx : idx < (Fifo.run sz {} h).1.items.length) :
    let all := storedAll sz {} h
    let retrieved := (Fifo.run sz {} h).1.popped
    all.drop retrieved = (Fifo.run sz {} h).1.items ∧
    (ErrQ.boot.run sz h).1.peek sz tooBig idx =
      (0x0000#16, (all[if (Fifo.run sz {} h).1.items.length = sz then retrieved + idx else lastAt sz idx all.length]?).map
        (·.msgCode)) := by
  intro all retrieved
  have hb : Slots sz ErrQ.boot {} [] := ⟨rfl, rfl, fun j hj => absurd hj (Nat.not_lt_zero _)⟩
  have hs := hb.run h (errSim_boot sz) hno
  rw [List.nil_append] at hs
  refine ⟨hs.tail, ?_⟩
  have hlen : all.length = retrieved + (Fifo.run sz {} h).1.items.length := hs.len
  by_cases hf : (Fifo.run sz {} h).1.items.length = sz
  · rw [if_pos hf, C52_peek_shows_stored_partial sz tooBig h hno (.inr hf) idx hidx]
    have ht : all.drop retrieved = (Fifo.run sz {} h).1.items := hs.tail
    rw [List.getElem?_eq_getElem (by omega)]
    have : all[retrieved + idx]'(by omega) = (Fifo.run sz {} h).1.items[idx] := by
      simp only [← ht]
      exact List.getElem_drop.symm
    rw [this]
    rfl
  · rw [if_neg hf]
    obtain ⟨_, e, hsim⟩ := errSim_run h (errSim_boot sz) hno
    have hst : (Fifo.run sz {} h).1.started = true := by
      cases hst : (Fifo.run sz {} h).1.started
      · rw [(hsim.fresh hst).1] at hidx; exact absurd hidx (Nat.not_lt_zero _)
      · rfl
    have hr := hsim.ready
    rw [hst] at hr
    have hc := hsim.count hst
    have hcap := hsim.cap
    have hl : lastAt sz idx all.length < all.length ∧ all.length ≤ lastAt sz idx all.length + sz ∧
        lastAt sz idx all.length % sz = idx := by
      unfold lastAt
      have h1 := Nat.div_add_mod (all.length - 1 - idx) sz
      have h2 := Nat.mod_lt (all.length - 1 - idx) (show sz > 0 by omega)
      refine ⟨by omega, by omega, ?_⟩
      rw [Nat.add_mul_mod_self_left, Nat.mod_eq_of_lt (by omega)]
    rw [List.getElem?_eq_getElem hl.1]
    have hbuf : (ErrQ.boot.run sz h).1.buf idx = all[lastAt sz idx all.length]'hl.1 := by
      have := hs.buf _ hl.1 hl.2.1
      rw [← this]
      exact congrArg _ hl.2.2.symm
    unfold ErrQ.peek
    rw [if_neg (by rw [hr]; exact fun e => e rfl), if_neg (by omega), if_neg (by omega)]
    dsimp only
    rw [if_pos (by omega), Nat.zero_add, Nat.add_mod_right, Nat.mod_eq_of_lt (by omega), hbuf]
    rfl

/-- C52: it shows the `idx`-th oldest waiting error (as a position of the history) exactly if the queue is full or the number of
retrieved errors is a multiple of its size. -/
theorem C52_peek_right_iff (sz : Nat) (h : List ErrOp) (hno : overruns sz {} false h = false)
    (idx : Nat) (hidx : idx < (Fifo.run sz {} h).1.items.length) :
    (if (Fifo.run sz {} h).1.items.length = sz then (Fifo.run sz {} h).1.popped + idx
      else lastAt sz idx (storedAll sz {} h).length) = (Fifo.run sz {} h).1.popped + idx ↔
    ((Fifo.run sz {} h).1.popped % sz = 0 ∨ (Fifo.run sz {} h).1.items.length = sz) := by
  have hb : Slots sz ErrQ.boot {} [] := ⟨rfl, rfl, fun j hj => absurd hj (Nat.not_lt_zero _)⟩
  have hs := hb.run h (errSim_boot sz) hno
  rw [List.nil_append] at hs
  have hlen := hs.len
  obtain ⟨_, e, hsim⟩ := errSim_run h (errSim_boot sz) hno
  have hcap := hsim.cap
  generalize (Fifo.run sz {} h).1 = f at *
  generalize (storedAll sz {} h).length = n at *
  by_cases hf : f.items.length = sz
  · rw [if_pos hf]; exact ⟨fun _ => .inr hf, fun _ => rfl⟩
  · rw [if_neg hf]
    unfold lastAt
    have hx : n - 1 - idx = f.popped + (f.items.length - 1 - idx) := by omega
    rw [hx]
    have h1 := Nat.div_add_mod (f.popped + (f.items.length - 1 - idx)) sz
    have h2 := Nat.mod_lt (f.popped + (f.items.length - 1 - idx)) (show sz > 0 by omega)
    constructor
    · intro e
      left
      have : f.popped = sz * ((f.popped + (f.items.length - 1 - idx)) / sz) := by omega
      rw [this]
      exact Nat.mul_mod_right ..
    · rintro (e | e)
      · obtain ⟨c, hc⟩ := Nat.dvd_of_mod_eq_zero e
        have : (f.popped + (f.items.length - 1 - idx)) / sz = c := by
          rw [hc, Nat.mul_add_div (by omega), Nat.div_eq_of_lt (by omega), Nat.add_zero]
        rw [this, hc]
        omega
      · exact absurd e hf

/-- C52: two reports, one retrieval and one more report in a queue with four places: position 1 shows the second report, though
the third is the one waiting there -/
example : overruns 4 {} false [.report 1 0 4 7 5 9, .report 2 0 4 7 5 9, .get, .report 3 0 4 7 5 9] = false ∧
    (Fifo.run 4 {} [.report 1 0 4 7 5 9, .report 2 0 4 7 5 9, .get, .report 3 0 4 7 5 9]).1.items.map (·.msgCode) = [2, 3] ∧
    lastAt 4 1 3 = 1 ∧
    (ErrQ.boot.run 4 [.report 1 0 4 7 5 9, .report 2 0 4 7 5 9, .get, .report 3 0 4 7 5 9]).1.peek 4 0 1 = (0, some 2) := by
  decide +kernel

end LiCan
