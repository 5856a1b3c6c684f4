import Verif.Model.Preempt
import Verif.Spec.Serial
/-! # Guarded code under preemption: invariants -/
namespace LiCan
namespace Lock
variable {L D : Type}

/-- program counter and register of the activations -/
def view (cs : List (Call L)) : List (Nat × Nat) := cs.map fun c => (c.pc, c.reg)

@[simp] theorem view_nil : view ([] : List (Call L)) = [] := rfl
@[simp] theorem view_cons (c : Call L) (cs) : view (c :: cs) = (c.pc, c.reg) :: view cs := rfl
@[simp] theorem view_length (cs : List (Call L)) : (view cs).length = cs.length := List.length_map ..

/-- at most one activation is in the guarded code -/
def Uniq : List (Nat × Nat) → Prop
  | [] => True
  | c :: cs => (c.1 = 4 → ∀ x ∈ cs, x.1 ≠ 4) ∧ Uniq cs

/-- What a guard has to keep, with at most `N` nested activations. -/
structure GuardOk (g : Guard) (N : Nat) (I : Sh → List (Nat × Nat) → Prop) : Prop where
  init : I ⟨0, true⟩ []
  call : ∀ sh cs, I sh cs → sh.irq → cs.length < N → I sh ((0, 0) :: cs)
  ret  : ∀ sh r cs, I sh ((9, r) :: cs) → I sh cs
  out  : ∀ sh r cs, I sh ((4, r) :: cs) → I sh ((5, r) :: cs)
  step : ∀ sh pc r cs, I sh ((pc, r) :: cs) → pc ≠ 4 → pc ≠ 9 →
    I (g sh pc r).1 (((g sh pc r).2.1, (g sh pc r).2.2) :: cs)
  front : ∀ sh pc r cs, I sh ((pc, r) :: cs) → pc ≠ 4 → (g sh pc r).2.1 ≤ 4 → pc < 4
  uniq : ∀ sh cs, I sh cs → Uniq cs

/-- a schedule without time slices -/
def Preemptive (as : List (Act L)) : Prop := ∀ a ∈ as, ∀ i, a = .cpu i → i = 0

/-- Invariant of the machine. -/
structure Inv (I : Sh → List (Nat × Nat) → Prop) (next : L → D → Option (L × D)) (d0 : D) (s : St L D) : Prop where
  guard : I s.sh (view s.calls)
  front : ∀ c ∈ s.calls, c.pc < 4 → c.loc = c.arg
  idle  : (∀ c ∈ s.calls, c.pc ≠ 4) → Spec.Serial next d0 s.served s.data
  busy  : ∀ c ∈ s.calls, c.pc = 4 → ∃ pre d1, s.served = pre ++ [c.arg] ∧ Spec.Serial next d0 pre d1 ∧
    Spec.Runs next c.arg d1 c.loc s.data

theorem uniq_rest {c : Call L} {cs : List (Call L)} (h : Uniq (view (c :: cs))) (h4 : c.pc = 4) :
    ∀ x ∈ cs, x.pc ≠ 4 := by
  intro x hx
  exact h.1 h4 (x.pc, x.reg) (List.mem_map.mpr ⟨x, hx, rfl⟩)

theorem Inv.step {g : Guard} {N : Nat} {I : Sh → List (Nat × Nat) → Prop} (G : GuardOk g N I)
    {next : L → D → Option (L × D)} {d0 : D} {s : St L D} (h : Inv I next d0 s) (a : Act L)
    (ha : ∀ i, a = .cpu i → i = 0) : Inv I next d0 (s.step g next N a) := by
  cases a with
  | call l =>
    unfold St.step
    simp only
    split
    · rename_i hc
      refine ⟨G.call _ _ h.guard hc.1 (by simpa using hc.2), ?_, ?_, ?_⟩
      · intro c hc' hp
        rcases List.mem_cons.mp hc' with rfl | hm
        · rfl
        · exact h.front c hm hp
      · intro hn
        exact h.idle fun c hm => hn c (List.mem_cons_of_mem _ hm)
      · intro c hc' hp
        rcases List.mem_cons.mp hc' with rfl | hm
        · exact absurd hp (by simp)
        · exact h.busy c hm hp
    · exact h
  | cpu i =>
    obtain rfl := ha i rfl
    unfold St.step
    obtain ⟨sh, data, calls, served, refused⟩ := s
    cases calls with
    | nil => exact h
    | cons c cs =>
      simp only [List.getElem?_cons_zero, List.eraseIdx_cons_zero, List.set_cons_zero]
      have hg := h.guard
      have hu := G.uniq _ _ hg
      simp only [view_cons] at hg
      by_cases h9 : c.pc = 9
      · rw [if_pos h9]
        rw [h9] at hg
        refine ⟨G.ret _ _ _ hg, fun x hx => h.front x (List.mem_cons_of_mem _ hx), ?_,
          fun x hx => h.busy x (List.mem_cons_of_mem _ hx)⟩
        intro hn
        refine h.idle fun x hx => ?_
        rcases List.mem_cons.mp hx with rfl | hm
        · omega
        · exact hn x hm
      · rw [if_neg h9]
        unfold Call.step
        by_cases h4 : c.pc = 4
        · rw [if_pos h4]
          have hr := uniq_rest hu h4
          obtain ⟨pre, d1, e1, e2, e3⟩ := h.busy c List.mem_cons_self h4
          simp only at e1 e3
          split
          · rename_i l d hn
            refine ⟨hg, ?_, ?_, ?_⟩
            · intro x hx hp
              rcases List.mem_cons.mp hx with rfl | hm
              · simp only at hp; omega
              · exact h.front x (List.mem_cons_of_mem _ hm) hp
            · intro hn'
              exact absurd h4 (hn' { c with loc := l } List.mem_cons_self)
            · intro x hx hp
              rcases List.mem_cons.mp hx with rfl | hm
              · exact ⟨pre, d1, e1, e2, .step e3 hn⟩
              · exact absurd hp (hr x hm)
          · rename_i hn
            rw [h4] at hg
            refine ⟨G.out _ _ _ hg, ?_, ?_, ?_⟩
            · intro x hx hp
              rcases List.mem_cons.mp hx with rfl | hm
              · simp only at hp; omega
              · exact h.front x (List.mem_cons_of_mem _ hm) hp
            · intro _
              show Spec.Serial next d0 served data
              rw [e1]
              exact .snoc e2 e3 hn
            · intro x hx hp
              rcases List.mem_cons.mp hx with rfl | hm
              · exact absurd hp (by simp)
              · exact absurd hp (hr x hm)
        · rw [if_neg h4]
          have hs := G.step _ _ _ _ hg h4 h9
          have hf := G.front _ _ _ _ hg h4
          generalize g sh c.pc c.reg = q at *
          dsimp only
          refine ⟨hs, ?_, ?_, ?_⟩
          · intro x hx hp
            rcases List.mem_cons.mp hx with rfl | hm
            · simp only at hp ⊢
              exact h.front c List.mem_cons_self (hf (by omega))
            · exact h.front x (List.mem_cons_of_mem _ hm) hp
          · intro hn
            have hq : q.2.1 ≠ 4 := hn _ List.mem_cons_self
            simp only [if_neg hq]
            refine h.idle fun x hx => ?_
            rcases List.mem_cons.mp hx with rfl | hm
            · exact h4
            · exact hn x (List.mem_cons_of_mem _ hm)
          · intro x hx hp
            by_cases hq : q.2.1 = 4
            · have hr : ∀ x ∈ cs, x.pc ≠ 4 := fun y hy =>
                (G.uniq _ _ hs).1 hq (y.pc, y.reg) (List.mem_map.mpr ⟨y, hy, rfl⟩)
              rcases List.mem_cons.mp hx with rfl | hm
              · simp only [if_pos hq]
                refine ⟨served, data, rfl, h.idle ?_, ?_⟩
                · intro y hy
                  rcases List.mem_cons.mp hy with rfl | hm
                  · exact h4
                  · exact hr y hm
                · rw [h.front c List.mem_cons_self (hf (by omega))]
                  exact .refl
              · exact absurd hp (hr x hm)
            · simp only [if_neg hq]
              rcases List.mem_cons.mp hx with rfl | hm
              · exact absurd hp hq
              · exact h.busy x (List.mem_cons_of_mem _ hm) hp

theorem Inv.run {g : Guard} {N : Nat} {I : Sh → List (Nat × Nat) → Prop} (G : GuardOk g N I)
    {next : L → D → Option (L × D)} {d0 : D} (as : List (Act L)) (ha : Preemptive as) :
    ∀ {s : St L D}, Inv I next d0 s → Inv I next d0 (s.run g next N as) := by
  induction as with
  | nil => intro s h; exact h
  | cons a as ih =>
    intro s h
    exact ih (fun b hb => ha b (List.mem_cons_of_mem _ hb)) (h.step G a (ha a List.mem_cons_self))

theorem Inv.init {g : Guard} {N : Nat} {I : Sh → List (Nat × Nat) → Prop} (G : GuardOk g N I)
    (next : L → D → Option (L × D)) (d0 : D) : Inv I next d0 (St.init d0) :=
  ⟨G.init, fun _ h => (List.not_mem_nil h).elim, fun _ => .nil, fun _ h => (List.not_mem_nil h).elim⟩

/-! ## The lock of the tunnel -/

/-- the activation has incremented the lock and not yet decremented it -/
def up (pc : Nat) : Nat := if pc = 2 ∨ pc = 4 ∨ pc = 5 ∨ pc = 6 then 1 else 0

/-- number of such activations -/
def raised : List (Nat × Nat) → Nat
  | [] => 0
  | c :: cs => up c.1 + raised cs

theorem raised_le : ∀ cs, raised cs ≤ cs.length
  | [] => Nat.le_refl _
  | c :: cs => by
    have := raised_le cs
    simp only [raised, List.length_cons, up]
    split <;> omega

/-- what the registers hold -/
def Levels : List (Nat × Nat) → Prop
  | [] => True
  | c :: cs => (c.1 = 0 ∨ c.1 = 1 ∨ c.1 = 2 ∨ c.1 = 4 ∨ c.1 = 5 ∨ c.1 = 6 ∨ c.1 = 9) ∧
      (c.1 = 1 → c.2 = raised cs) ∧ (c.1 = 6 → c.2 = raised cs + 1) ∧ (c.1 = 4 → raised cs = 0) ∧ Levels cs

theorem raised_zero : ∀ {cs}, raised cs = 0 → ∀ x ∈ cs, x.1 ≠ 4
  | [], _, x, hx => (List.not_mem_nil hx).elim
  | c :: cs, h, x, hx => by
    simp only [raised, up] at h
    rcases List.mem_cons.mp hx with rfl | hm
    · intro h4; simp [h4] at h
    · exact raised_zero (by omega) x hm

theorem levels_uniq : ∀ {cs}, Levels cs → Uniq cs
  | [], _ => trivial
  | _ :: _, h => ⟨fun h4 => raised_zero (h.2.2.2.1 h4), levels_uniq h.2.2.2.2⟩

/-- invariant of the lock of the tunnel -/
def TunnelInv (N : Nat) (sh : Sh) (cs : List (Nat × Nat)) : Prop :=
  sh.irq = true ∧ sh.lock = raised cs ∧ cs.length ≤ N ∧ Levels cs

theorem tunnel_ok {N : Nat} (hN : N ≤ 65535) : GuardOk tunnel N (TunnelInv N) where
  init := ⟨rfl, rfl, Nat.zero_le _, trivial⟩
  call := fun sh cs h _ hl => ⟨h.1, by rw [h.2.1]; simp [raised, up], hl, .inl rfl, by simp, by simp, by simp, h.2.2.2⟩
  ret := fun sh r cs h => ⟨h.1, by rw [h.2.1]; simp [raised, up], by have := h.2.2.1; simp at this; omega, h.2.2.2.2.2.2.2⟩
  out := fun sh r cs h => ⟨h.1, by rw [h.2.1]; simp [raised, up], h.2.2.1, by simp, by simp, by simp, by simp, h.2.2.2.2.2.2.2⟩
  step := by
    intro sh pc r cs ⟨h1, h2, h3, h4, h5, h6, h7, h8⟩ n4 n9
    have hr := raised_le cs
    simp only [List.length_cons] at h3
    simp only [raised] at h2
    rcases h4 with e | e | e | e | e | e | e <;> simp only at e <;> subst e
    · exact ⟨h1, by simp [tunnel, raised, up] at h2 ⊢; omega, by simpa using h3, by simp [tunnel],
        fun _ => by simp [tunnel, up] at h2 ⊢; omega, by simp [tunnel], by simp [tunnel], h8⟩
    · have := h5 rfl
      simp only at this
      refine ⟨h1, ?_, by simpa using h3, by simp [tunnel], by simp [tunnel], by simp [tunnel], by simp [tunnel], h8⟩
      show (r + 1) % 65536 = up 2 + raised cs
      rw [Nat.mod_eq_of_lt (by omega)]
      simp only [up, true_or, if_true]
      omega
    · simp [up] at h2
      by_cases hl : sh.lock = 1
      · refine ⟨h1, ?_, by simpa using h3, by simp [tunnel, hl], by simp [tunnel, hl], by simp [tunnel, hl], fun _ => by omega, h8⟩
        simp [tunnel, hl, raised, up]; omega
      · refine ⟨h1, ?_, by simpa using h3, by simp [tunnel, hl], by simp [tunnel, hl], by simp [tunnel, hl], by simp [tunnel, hl], h8⟩
        simp [tunnel, hl, raised, up]; omega
    · exact absurd rfl n4
    · simp [up] at h2
      refine ⟨h1, ?_, by simpa using h3, by simp [tunnel], by simp [tunnel], fun _ => ?_, by simp [tunnel], h8⟩
      · simp [tunnel, raised, up]; omega
      · simp [tunnel]; omega
    · have := h6 rfl
      simp only at this
      have e : (r + 65535) % 65536 = raised cs := by omega
      have ht : tunnel sh 6 r = (⟨raised cs, sh.irq⟩, 9, r) := by
        unfold tunnel
        rw [if_neg (by decide), if_neg (by decide), if_neg (by decide), if_neg (by decide), e]
      rw [ht]
      exact ⟨h1, (Nat.zero_add _).symm, by simpa using h3, by simp, by simp, by simp, by simp, h8⟩
    · exact absurd rfl n9
  front := by
    intro sh pc r cs ⟨_, _, _, h4, _⟩ n4 hq
    rcases h4 with e | e | e | e | e | e | e <;> simp only at e <;> subst e <;> simp [tunnel] at hq ⊢
  uniq := fun sh cs h => levels_uniq h.2.2.2

/-! ## The lock of the error handler -/

/-- the activation holds the lock -/
def holds (pc : Nat) : Prop := pc = 3 ∨ pc = 4 ∨ pc = 5 ∨ pc = 6

instance (pc : Nat) : Decidable (holds pc) := by unfold holds; infer_instance

/-- some activation holds the lock -/
def held (cs : List (Nat × Nat)) : Prop := ∃ x ∈ cs, holds x.1

/-- the interrupts are disabled -/
def masked (pc : Nat) : Prop := pc = 2 ∨ pc = 3 ∨ pc = 6 ∨ pc = 7

instance (pc : Nat) : Decidable (masked pc) := by unfold masked; infer_instance

/-- interrupted activations -/
def Below : List (Nat × Nat) → Prop
  | [] => True
  | c :: cs => (c.1 ≤ 7 ∨ c.1 = 9) ∧ (held cs → c.1 = 0 ∨ c.1 = 9) ∧ (∀ x ∈ cs, ¬ masked x.1) ∧ Below cs

/-- the interrupts are enabled -/
def free : List (Nat × Nat) → Prop
  | [] => True
  | c :: _ => ¬ masked c.1

/-- invariant of the lock of the error handler -/
def ErrorInv (sh : Sh) (cs : List (Nat × Nat)) : Prop :=
  (sh.irq = true ↔ free cs) ∧ (held cs → sh.lock = 1) ∧ (¬ held cs → sh.lock = 0) ∧ Below cs

theorem below_uniq : ∀ {cs}, Below cs → Uniq cs
  | [], _ => trivial
  | c :: cs, h => by
    refine ⟨fun h4 x hx h4' => ?_, below_uniq h.2.2.2⟩
    have := h.2.1 ⟨x, hx, by simp [holds, h4']⟩
    omega

theorem held_cons (pc r : Nat) (cs) : held ((pc, r) :: cs) ↔ holds pc ∨ held cs := by
  unfold held
  constructor
  · rintro ⟨x, hx, h⟩
    rcases List.mem_cons.mp hx with rfl | hm
    · exact .inl h
    · exact .inr ⟨x, hm, h⟩
  · rintro (h | ⟨x, hm, h⟩)
    · exact ⟨_, List.mem_cons_self, h⟩
    · exact ⟨x, List.mem_cons_of_mem _ hm, h⟩

theorem error_ok (N : Nat) : GuardOk errorHandler N ErrorInv where
  init := ⟨by simp [free], by rintro ⟨x, hx, _⟩; exact (List.not_mem_nil hx).elim, fun _ => rfl, trivial⟩
  call := by
    intro sh cs ⟨h1, h2, h3, h4⟩ hi _
    refine ⟨by simp [free, hi, masked], fun h => h2 ?_, fun h => h3 ?_, .inl (Nat.zero_le _), fun _ => .inl rfl, ?_, h4⟩
    · exact ((held_cons _ _ _).mp h).resolve_left (by decide)
    · exact fun hh => h ((held_cons _ _ _).mpr (.inr hh))
    · cases cs with
      | nil => intro x hx; exact (List.not_mem_nil hx).elim
      | cons c cs =>
        intro x hx
        rcases List.mem_cons.mp hx with rfl | hm
        · exact h1.mp hi
        · exact h4.2.2.1 x hm
  ret := by
    intro sh r cs ⟨h1, h2, h3, h4, h5, h6, h7⟩
    have hi : sh.irq = true := h1.mpr (by simp [free, masked])
    refine ⟨iff_of_true hi ?_, fun h => h2 ((held_cons _ _ _).mpr (.inr h)), fun h => h3 ?_, h7⟩
    · cases cs with
      | nil => trivial
      | cons c cs => exact h6 c List.mem_cons_self
    · exact fun hh => h (((held_cons _ _ _).mp hh).resolve_left (by decide))
  out := by
    intro sh r cs ⟨h1, h2, h3, h4, h5, h6, h7⟩
    refine ⟨by rw [h1]; simp [free, masked], fun _ => h2 ((held_cons _ _ _).mpr (.inl (by decide))), fun h => ?_,
      .inl (by simp), fun h => ?_, h6, h7⟩
    · exact absurd ((held_cons _ _ _).mpr (.inl (by decide))) h
    · have := h5 h; simp at this
  step := by
    intro sh pc r cs ⟨h1, h2, h3, h4, h5, h6, h7⟩ n4 n9
    simp only at h4
    rw [held_cons] at h2 h3
    by_cases hh : held cs
    · have hp : pc = 0 := (h5 hh).resolve_right n9
      subst hp
      have hl := h2 (.inr hh)
      have hi : sh.irq = true := h1.mpr (by simp [free, masked])
      refine ⟨by simp [errorHandler, hl, free, masked, hi], fun _ => hl, fun h => absurd ((held_cons _ _ _).mpr (.inr hh)) h,
        by simp [errorHandler, hl], fun _ => by simp [errorHandler, hl], h6, h7⟩
    · have hp : pc = 0 ∨ pc = 1 ∨ pc = 2 ∨ pc = 3 ∨ pc = 5 ∨ pc = 6 ∨ pc = 7 := by omega
      simp only [ErrorInv, held_cons, Below, hh, or_false, false_implies, true_and]
      rcases hp with e | e | e | e | e | e | e <;> subst e
      · have hl := h3 (by simp [hh, holds])
        have hi : sh.irq = true := h1.mpr (by simp [free, masked])
        refine ⟨by simp [errorHandler, hl, free, masked, hi], by simp [errorHandler, hl, holds], by simp [errorHandler, hl], by simp [errorHandler, hl], h6, h7⟩
      · have hl := h3 (by simp [hh, holds])
        refine ⟨by simp [errorHandler, free, masked], by simp [errorHandler, holds], by simp [errorHandler, hl], by simp [errorHandler], h6, h7⟩
      · have hi : sh.irq = false := by
          cases hb : sh.irq with
          | false => rfl
          | true => exact absurd (.inl rfl) (h1.mp hb)
        refine ⟨by simp [errorHandler, hi, free, masked], by simp [errorHandler], by simp [errorHandler, holds], by simp [errorHandler], h6, h7⟩
      · have hl := h2 (.inl (by decide))
        refine ⟨by simp [errorHandler, free, masked], by simp [errorHandler, hl], by simp [errorHandler, holds], by simp [errorHandler], h6, h7⟩
      · have hl := h2 (.inl (by decide))
        refine ⟨by simp [errorHandler, free, masked], by simp [errorHandler, hl], by simp [errorHandler, holds], by simp [errorHandler], h6, h7⟩
      · have hi : sh.irq = false := by
          cases hb : sh.irq with
          | false => rfl
          | true => exact absurd (.inr (.inr (.inl rfl))) (h1.mp hb)
        refine ⟨by simp [errorHandler, hi, free, masked], by simp [errorHandler, holds], by simp [errorHandler], by simp [errorHandler], h6, h7⟩
      · have hl := h3 (by simp [hh, holds])
        refine ⟨by simp [errorHandler, free, masked], by simp [errorHandler, holds], by simp [errorHandler, hl], by simp [errorHandler], h6, h7⟩
  front := by
    intro sh pc r cs ⟨_, _, _, h4, _⟩ n4 hq
    simp only at h4
    have hp : pc = 0 ∨ pc = 1 ∨ pc = 2 ∨ pc = 3 ∨ pc = 5 ∨ pc = 6 ∨ pc = 7 ∨ pc = 9 := by omega
    rcases hp with e | e | e | e | e | e | e | e <;> subst e <;> simp [errorHandler] at hq ⊢
  uniq := fun sh cs h => below_uniq h.2.2.2

end Lock
end LiCan
