import Verif.Model.Snapshot
/-! # C16: transmitted process data is a consistent snapshot -/
namespace LiCan
namespace CopySt

theorem run_append (p : Nat) (a b : List CopyAct) : ∀ s : CopySt, run p s (a ++ b) = run p (run p s a) b := by
  induction a with
  | nil => intro s; rfl
  | cons x a ih => intro s; exact ih _

theorem snoc_ind {α : Type} (P : List α → Prop) (h0 : P []) (h1 : ∀ l x, P l → P (l ++ [x])) (l : List α) : P l := by
  have : ∀ l : List α, P l.reverse := by
    intro l
    induction l with
    | nil => exact h0
    | cons x l ih => rw [List.reverse_cons]; exact h1 _ _ ih
  rw [← List.reverse_reverse l]; exact this _

/-- invariant along an interleaving -/
def Inv (p : Nat) (s0 : CopySt) (as : List CopyAct) : Prop :=
  let s := run p s0 as
  s.pc = 0 ∨ (1 ≤ s.pc ∧ s.pc ≤ 9 ∧ s.irq = false ∧ ∀ k < s.pc - 1, s.tmp k = s.mem (p + k)) ∨
  (s.pc = 10 ∧ s.irq = true ∧ ∃ a b, as = a ++ b ∧ ∀ k < 8, s.tmp k = (run p s0 a).mem (p + k))

theorem inv (p : Nat) (s0 : CopySt) (h0 : s0.pc = 0) (as : List CopyAct) : Inv p s0 as := by
  refine snoc_ind _ ?_ ?_ as
  · exact .inl h0
  · intro as x ih
    unfold Inv at *
    simp only at *
    rw [run_append]
    generalize hs : run p s0 as = s at *
    show (step p s x).pc = 0 ∨ _
    have hrun : run p s [x] = step p s x := rfl
    rw [hrun]
    rcases ih with h | ⟨h1, h2, h3, h4⟩ | ⟨h1, h2, a, b, e, h3⟩
    · cases x with
      | isr m => left; simp only [step]; split <;> exact h
      | cpu => right; left; simp [step, h]
    · cases x with
      | isr m => right; left; simp only [step, h3, Bool.false_eq_true, if_false]; exact ⟨h1, h2, trivial, h4⟩
      | cpu =>
        unfold step
        rw [if_neg (by omega)]
        by_cases h9 : s.pc < 9
        · right; left
          rw [if_pos h9]
          refine ⟨by simp, by simp only; omega, h3, ?_⟩
          intro k hk
          simp only at hk ⊢
          by_cases e : k = s.pc - 1
          · subst e; simp
          · rw [upd_other _ _ e]; exact h4 k (by omega)
        · right; right
          rw [if_neg h9, if_pos (by omega)]
          refine ⟨rfl, rfl, as, [.cpu], rfl, ?_⟩
          intro k hk
          simp only
          rw [hs]
          exact h4 k (by omega)
    · right; right
      have : step p s x = { s with mem := (step p s x).mem } := by
        cases x with
        | isr m => unfold step; simp [h2]
        | cpu => simp only [step, h1]; simp; rw [← h1]
      rw [this]
      refine ⟨h1, h2, a, b ++ [x], by rw [e, List.append_assoc], h3⟩

/-- C16: however interrupts that rewrite the application memory interleave with the copy, the bytes
handed to the conversion function (and hence the transmitted bytes, which depend on nothing else) are
the eight bytes of the object as they were together at one moment of the execution. -/
theorem C16_snapshot (p : Nat) (s0 : CopySt) (h0 : s0.pc = 0) (as : List CopyAct) (hend : (run p s0 as).pc = 10) :
    ∃ a b, as = a ++ b ∧ (run p s0 as).copy = (run p s0 a).object p ∧
      ∀ (env : Env) (c : Conv) (dlc : Nat) (buf : List Byte),
        Node.callTx env c (run p s0 as).copy dlc buf = Node.callTx env c ((run p s0 a).object p) dlc buf := by
  have h := inv p s0 h0 as
  unfold Inv at h
  simp only at h
  rcases h with h | ⟨_, h, _⟩ | ⟨_, _, a, b, e, h⟩
  · omega
  · omega
  · have hc : (run p s0 as).copy = (run p s0 a).object p := by
      unfold copy object
      apply List.map_congr_left
      intro k hk
      exact h k (List.mem_range.1 hk)
    exact ⟨a, b, e, hc, fun _ _ _ _ => by rw [hc]⟩

/-- C16: the copy takes ten steps of the processor, however many interrupts come in between. -/
theorem C16_terminates (p : Nat) (as : List CopyAct) : ∀ (s0 : CopySt), s0.pc ≤ 10 →
    10 ≤ s0.pc + (as.filter fun a => match a with | .cpu => true | .isr _ => false).length →
    (run p s0 as).pc = 10 := by
  induction as with
  | nil => intro s0 h1 h2; simp at h2; show s0.pc = 10; omega
  | cons a as ih =>
    intro s0 h1 h2
    cases a with
    | isr m =>
      have e : (step p s0 (.isr m)).pc = s0.pc := by
        simp only [step]; split <;> rfl
      refine ih (step p s0 (.isr m)) (by rw [e]; exact h1) ?_
      rw [e]; simpa using h2
    | cpu =>
      have e : (step p s0 .cpu).pc = if s0.pc < 10 then s0.pc + 1 else s0.pc := by
        by_cases c0 : s0.pc = 0
        · simp [step, c0]
        · by_cases c9 : s0.pc < 9
          · simp only [step, c0, if_false, c9, if_true]; rw [if_pos (by omega)]
          · by_cases ce : s0.pc = 9
            · simp [step, ce]
            · simp only [step, c0, if_false, c9, ce]; rw [if_neg (by omega)]
      have h2' : 10 ≤ s0.pc + (List.filter (fun a => match a with | .cpu => true | .isr _ => false) as).length + 1 := by
        simpa [Nat.add_assoc] using h2
      refine ih (step p s0 .cpu) (by rw [e]; split <;> omega) ?_
      rw [e]; split <;> omega

/-- an interrupt between any two steps, also at the start and at the end: the copy is the object of
one moment (all bytes 7), not a mixture -/
example :
    let s0 : CopySt := ⟨true, fun _ => 1, fun _ => 0, 0⟩
    let isr : Byte → CopyAct := fun b => .isr fun _ => b
    let as := [isr 7, .cpu, isr 8, .cpu, isr 9, .cpu, .cpu, isr 10, .cpu, .cpu, .cpu, .cpu, .cpu, isr 11, .cpu, isr 12]
    (run 100 s0 as).pc = 10 ∧ (run 100 s0 as).copy = [7, 7, 7, 7, 7, 7, 7, 7] ∧
    (run 100 s0 as).object 100 = [12, 12, 12, 12, 12, 12, 12, 12] := by decide

/-- The lock does not nest: interrupts are enabled afterwards even if the caller had disabled them. -/
theorem C16_enables_interrupts (p : Nat) (s0 : CopySt) (h0 : s0.pc = 0) (as : List CopyAct)
    (hend : (run p s0 as).pc = 10) : (run p s0 as).irq = true := by
  have h := inv p s0 h0 as
  unfold Inv at h
  simp only at h
  rcases h with h | ⟨_, h, _⟩ | ⟨_, h, _⟩
  · omega
  · omega
  · exact h

example :
    let s0 : CopySt := ⟨false, fun _ => 1, fun _ => 0, 0⟩
    (run 100 s0 (List.replicate 10 .cpu)).pc = 10 ∧ (run 100 s0 (List.replicate 10 .cpu)).irq = true := by decide

end CopySt
end LiCan
