import Verif.Props.Upload
/-! # How long the upload of a block takes -/
namespace LiCan

namespace Spec

/-- With the tick counter `c` (its readings, in order) and the delay `d`: `j` is the first reading after `i` that shows more
than the reading `i` plus the delay, the sum being cut to 32 bits. -/
def Waits (c : Nat → Nat) (d i j : Nat) : Prop :=
  i < j ∧ (c i + d) % 4294967296 < c j ∧ ∀ k, i < k → k < j → c k ≤ (c i + d) % 4294967296

/-- `m` waits one after the other, each beginning with the reading after the end of the one before; the first begins with
reading `i`, reading `e` comes after the last. -/
inductive Paced (c : Nat → Nat) (d : Nat) : Nat → Nat → Nat → Prop
  | done (i : Nat) : Paced c d i 0 i
  | wait {i j m e : Nat} : Waits c d i j → Paced c d (j + 1) m e → Paced c d i (m + 1) e

/-- number of messages of seven bytes for `n` bytes, at least one -/
def messages (n : Nat) : Nat := max 1 ((n + 6) / 7)

end Spec

namespace Stack
open Spec
open Node (exMem exEnv)

/-- messages still to send when one is filled and `left` bytes remain -/
private theorem messages_left (left : Nat) : messages (left + 7) = 1 + (left + 6) / 7 := by
  unfold messages; omega

theorem ulLoop_paced (env : AEnv) (data : List Byte) (fuel : Nat) : ∀ (s : Stack) (i : Nat) (seg : List Byte) (s' : Stack),
    i < s.clockN → (∀ k, i < k → k < s.clockN → env.clock k ≤ (env.clock i + s.x.delay) % 4294967296) →
    ulLoop env data fuel s (env.clock i) seg = some s' →
    ∃ e, Paced env.clock s.x.delay i (1 + (data.length - s.x.bytes + 6) / 7) e ∧ s'.clockN = e + 1 := by
  induction fuel with
  | zero => intro s i seg s' _ _ h; cases h
  | succ fuel ih =>
    intro s i seg s' hi hk h
    rw [ulLoop_succ] at h
    split at h
    · rename_i hp
      have hw : Waits env.clock s.x.delay i s.clockN := ⟨hi, hp, hk⟩
      dsimp only at h
      have ex : (ulSeg env { s with clockN := s.clockN + 1 } seg).x = { s.x with objs := u16 (s.x.objs + 1) } := rfl
      have ec : (ulSeg env { s with clockN := s.clockN + 1 } seg).clockN = s.clockN + 1 := rfl
      generalize ulSeg env { s with clockN := s.clockN + 1 } seg = s1 at h ex ec
      rw [ec] at h
      have eb : s1.x.bytes = s.x.bytes := by rw [ex]
      have ed : s1.x.delay = s.x.delay := by rw [ex]
      rw [eb] at h
      split at h
      · rename_i hb
        have hf : (ulFill data s.x.bytes).2 = min data.length (s.x.bytes + 7) := by
          unfold ulFill; rw [if_neg (by omega)]
        obtain ⟨e, he, hc⟩ := ih { (s1.setX fun x => { x with bytes := (ulFill data s.x.bytes).2 }) with
          clockN := s.clockN + 1 + 1 } (s.clockN + 1) _ s' (by exact Nat.lt_succ_self _) (by
          intro k h1 h2
          have h2 : k < s.clockN + 1 + 1 := h2
          omega) h
        refine ⟨e, ?_, hc⟩
        have he : Paced env.clock s1.x.delay (s.clockN + 1) (1 + (data.length - (ulFill data s.x.bytes).2 + 6) / 7) e := he
        rw [ed, hf] at he
        rw [show 1 + (data.length - s.x.bytes + 6) / 7 = (1 + (data.length - min data.length (s.x.bytes + 7) + 6) / 7) + 1 by
          omega]
        exact .wait hw he
      · rename_i hb
        injection h with h
        refine ⟨s.clockN + 1, ?_, ?_⟩
        · rw [show 1 + (data.length - s.x.bytes + 6) / 7 = 0 + 1 by omega]
          exact .wait hw (.done _)
        · rw [← h]
    · rename_i hp
      exact ih { s with clockN := s.clockN + 1 } i seg s' (Nat.lt_succ_of_lt hi) (by
        intro k h1 h2
        have h2 : k < s.clockN + 1 := h2
        by_cases e : k = s.clockN
        · rw [e]; exact Nat.le_of_not_lt hp
        · exact hk k h1 (by omega)) h

theorem ulLoop_returns (env : AEnv) (data : List Byte) (d : Nat) {i m e : Nat} (h : Paced env.clock d i m e) :
    ∀ (s : Stack) (seg : List Byte), s.x.delay = d → i < s.clockN →
      (∀ k, i < k → k < s.clockN → env.clock k ≤ (env.clock i + d) % 4294967296) →
      m = 1 + (data.length - s.x.bytes + 6) / 7 →
      ∃ fuel s', ulLoop env data fuel s (env.clock i) seg = some s' := by
  induction h with
  | done i => intro s seg _ _ _ hm; omega
  | @wait i j m e hw hp ih =>
    intro s seg hd hi hk hm
    have hle : s.clockN ≤ j := by
      apply Nat.le_of_not_lt
      intro hlt
      exact absurd hw.2.1 (Nat.not_lt.mpr (hk j hw.1 hlt))
    obtain ⟨r, hr⟩ := Nat.exists_eq_add_of_le hle
    clear hle
    induction r generalizing s with
    | zero =>
      have hc : s.clockN = j := hr.symm
      have hpass : u32 (env.clock i + s.x.delay) < env.clock s.clockN := by rw [hd, hc]; exact hw.2.1
      by_cases hb : s.x.bytes < data.length
      · have hf : (ulFill data s.x.bytes).2 = min data.length (s.x.bytes + 7) := by
          unfold ulFill; rw [if_neg (by omega)]
        obtain ⟨fuel, s', h⟩ := ih { ((ulSeg env { s with clockN := s.clockN + 1 } seg).setX fun x =>
            { x with bytes := (ulFill data s.x.bytes).2 }) with clockN := s.clockN + 1 + 1 } (ulFill data s.x.bytes).1
          hd (by show j + 1 < s.clockN + 1 + 1; omega) (by
            intro k h1 h2
            have h2 : k < s.clockN + 1 + 1 := h2
            omega) (by
            show m = 1 + (data.length - (ulFill data s.x.bytes).2 + 6) / 7
            rw [hf]; omega)
        refine ⟨fuel + 1, s', ?_⟩
        rw [ulLoop_succ, if_pos hpass]
        dsimp only
        rw [if_pos (by show s.x.bytes < _; exact hb)]
        rw [← hc] at h
        exact h
      · exact ⟨1, ulLoop_last env data s _ seg hpass hb⟩
    | succ r ihr =>
      have hfail : ¬ u32 (env.clock i + s.x.delay) < env.clock s.clockN := by
        rw [hd]
        exact Nat.not_lt.mpr (hw.2.2 s.clockN hi (by omega))
      obtain ⟨fuel, s', h⟩ := ihr { s with clockN := s.clockN + 1 } hd (Nat.lt_succ_of_lt hi) (by
        intro k h1 h2
        have h2 : k < s.clockN + 1 := h2
        by_cases e : k = s.clockN
        · rw [e]; exact hw.2.2 s.clockN hi (by omega)
        · exact hk k h1 (by omega)) hm (by show j = s.clockN + 1 + r; omega)
      refine ⟨fuel + 1, s', ?_⟩
      rw [ulLoop_succ, if_neg hfail]
      exact h

theorem messages_ulFill (data : List Byte) (b : Nat) :
    1 + (data.length - (ulFill data b).2 + 6) / 7 = messages (data.length - b) := by
  unfold ulFill messages
  dsimp only
  split <;> omega

/-- C58, exactly: uploading a block returns if and only if the tick counter gets past each of the waits, one per message. -/
theorem C58_returns_iff (env : AEnv) (s : Stack) (data : List Byte) :
    (∃ fuel s', ulData env fuel s data = some s') ↔
      ∃ e, Paced env.clock s.x.delay s.clockN (messages (data.length - s.x.bytes)) e := by
  constructor
  · rintro ⟨fuel, s', h⟩
    obtain ⟨e, he, -⟩ := ulLoop_paced env data fuel _ s.clockN _ s' (by exact Nat.lt_succ_self _) (by
      intro k h1 h2
      have h2 : k < s.clockN + 1 := h2
      omega) h
    have he : Paced env.clock s.x.delay s.clockN (1 + (data.length - (ulFill data s.x.bytes).2 + 6) / 7) e := he
    rw [messages_ulFill] at he
    exact ⟨e, he⟩
  · rintro ⟨e, he⟩
    exact ulLoop_returns env data s.x.delay he _ _ rfl (by exact Nat.lt_succ_self _) (by
      intro k h1 h2
      have h2 : k < s.clockN + 1 := h2
      omega) (by rw [← messages_ulFill]; rfl)

/-- C58: with a 32-bit tick counter an upload whose first wait ends at the last tick before the wrap never returns. -/
theorem C58_stuck (env : AEnv) (hc : ∀ k, env.clock k < 4294967296) (s : Stack) (data : List Byte)
    (hs : (env.clock s.clockN + s.x.delay) % 4294967296 = 4294967295) (fuel : Nat) : ulData env fuel s data = none := by
  cases h : ulData env fuel s data with
  | none => rfl
  | some s' =>
    obtain ⟨e, he⟩ := (C58_returns_iff env s data).1 ⟨fuel, s', h⟩
    obtain ⟨m, hm⟩ : ∃ m, messages (data.length - s.x.bytes) = m + 1 := ⟨messages (data.length - s.x.bytes) - 1, by
      unfold messages; omega⟩
    rw [hm] at he
    cases he with
    | wait hw _ =>
      rename_i j _
      have := hw.2.1
      have := hc j
      omega

/-- what `m` waits take if the counter does not wrap -/
theorem Paced.time {c : Nat → Nat} {d i m e : Nat} (h : Paced c d i m e) (mono : ∀ a b, a ≤ b → c a ≤ c b)
    (hw : ∀ k, k < e → c k + d < 4294967296) : i ≤ e ∧ (0 < m → c i + m * (d + 1) ≤ c (e - 1)) := by
  induction h with
  | done i => exact ⟨Nat.le_refl _, fun h => absurd h (Nat.lt_irrefl _)⟩
  | @wait i j m e hwt _ ih =>
    obtain ⟨h1, h2⟩ := ih hw
    have hij := hwt.1
    refine ⟨by omega, fun _ => ?_⟩
    have a := hwt.2.1
    rw [Nat.mod_eq_of_lt (hw i (by omega))] at a
    by_cases hm : 0 < m
    · have := h2 hm
      have := mono j (j + 1) (Nat.le_succ _)
      rw [Nat.succ_mul]
      omega
    · have hm : m = 0 := by omega
      have := mono j (e - 1) (by omega)
      rw [hm]
      omega

/-- C114, as far as it holds: with ticks of a millisecond and without a wrap of the tick counter, the upload of a block takes
at least the delay (ms) requested by the master, for each of its messages. -/
theorem C114_pace_partial (env : AEnv) (mono : ∀ a b, a ≤ b → env.clock a ≤ env.clock b) (s s' : Stack) (data : List Byte)
    (fuel : Nat) (hw : ∀ k, k < s'.clockN → env.clock k + s.x.delay < 4294967296) (h : ulData env fuel s data = some s') :
    env.clock s.clockN + messages (data.length - s.x.bytes) * (s.x.delay + 1) ≤ env.clock (s'.clockN - 2) := by
  obtain ⟨e, he, hc⟩ := ulLoop_paced env data fuel _ s.clockN _ s' (by exact Nat.lt_succ_self _) (by
    intro k h1 h2
    have h2 : k < s.clockN + 1 := h2
    omega) h
  have he : Paced env.clock s.x.delay s.clockN (1 + (data.length - (ulFill data s.x.bytes).2 + 6) / 7) e := he
  rw [messages_ulFill] at he
  have key := (Paced.time he mono (fun k hk => hw k (by omega))).2 (by unfold messages; omega)
  rw [show s'.clockN - 2 = e - 1 by omega]
  exact key

/-! ## Cases -/

/-- an upload started with a delay of 20 ms between the messages -/
def exSlow : Stack := recv exA 5 exS [[0x1D, 67, 79, 77, 80, 79, 78, 69], [0x1E, 78, 0, 140, 20, 0, 0, 0]]

/-- a tick counter of 32 bits, one tick per reading, showing `a` at reading `n` -/
def exClock (a n k : Nat) : Nat := (k - n + a) % 4294967296

/-- C58, C114: two messages with a delay of 20 ms; 42 readings are waited, 45 are made -/
example : exSlow.x.delay = 20 ∧ messages ((List.replicate 9 (0 : Byte)).length - exSlow.x.bytes) = 2 ∧
    (∃ e, Paced exA.clock 20 exSlow.clockN 2 e) ∧
    (ulData { exA with clock := exClock 1000 exSlow.clockN } 50 exSlow [1, 2, 3, 4, 5, 6, 7, 8, 9]).map (fun s =>
      (s.clockN - exSlow.clockN, exClock 1000 exSlow.clockN (s.clockN - 2), (exFrames s).length)) = some (45, 1043, 3) := by
  refine ⟨by decide +kernel, by decide +kernel, ?_, by decide +kernel⟩
  have key : exSlow.x.delay = 20 ∧ messages ([1, 2, 3, 4, 5, 6, 7, 8, (9 : Byte)].length - exSlow.x.bytes) = 2 := by decide +kernel
  have h := (C58_returns_iff exA exSlow [1, 2, 3, 4, 5, 6, 7, 8, 9]).1
    (C58_upload_returns_partial exA exSlow _ (by
      intro i n
      refine ⟨n + (exA.clock i + exSlow.x.delay) % 4294967296, by omega, ?_⟩
      show _ < 10 * _ + 10
      omega))
  rw [key.1, key.2] at h
  exact h

/-- C58: a case of `C58_stuck` -/
example : (exClock 4294967275 exSlow.clockN exSlow.clockN + exSlow.x.delay) % 4294967296 = 4294967295 := by decide +kernel

/-- C114 is false for other ticks: the delay is added to the tick counter as if a tick were a millisecond.  With ticks of a
tenth of a millisecond a block of two messages, to be sent 20 ms apart, is sent within 5 ms. -/
theorem C114_counterexample :
    let env : AEnv := { exA with clock := exClock 1000 exSlow.clockN, t2ms := fun t => t / 10, ms2t := fun t => t * 10 }
    exSlow.x.delay = 20 ∧
    (ulData env 50 exSlow [1, 2, 3, 4, 5, 6, 7, 8, 9]).map (fun s =>
      (env.t2ms (env.clock (s.clockN - 2) - env.clock exSlow.clockN), (exFrames s).length)) = some (4, 3) := by
  decide +kernel

/-- C114 is false at the wrap of the tick counter: the messages are sent without any delay. -/
theorem C114_counterexample_wrap :
    exSlow.x.delay = 20 ∧
    (ulData { exA with clock := exClock 4294967285 exSlow.clockN } 50 exSlow [1, 2, 3, 4, 5, 6, 7, 8, 9]).map (fun s =>
      (exClock 4294967285 exSlow.clockN (s.clockN - 2) - exClock 4294967285 exSlow.clockN exSlow.clockN, (exFrames s).length)) =
      some (3, 3) := by
  decide +kernel

end Stack
end LiCan
