import Verif.Model.FifoIrq
import Verif.Lemmas.Ring
/-! # C133: the frame FIFO of the driver with interrupts inside a write -/
namespace LiCan
namespace FifoIrq
variable {α : Type}

/-- the places of the array -/
structure Core (n : Nat) (f : CpFifo α) (q : List α) : Prop where
  pos : 0 < n
  u32 : n < 2 ^ 32
  max : f.max = n
  out : f.out < n
  len : q.length ≤ n
  buf : ∀ i (h : i < q.length), f.buf ((f.out + i) % n) = q[i]

/-- the flags between two writes: "full" may be set although there is room, but not if the FIFO is empty -/
def Flag (n : Nat) (st : BitVec 32) (k : Nat) : Prop := (k = 0 → st = 1) ∧ (k = n → st = 2) ∧ (0 < k → st = 0 ∨ st = 2)

/-- the flags while the index is ahead of them -/
def Mid (st : BitVec 32) (k : Nat) : Prop := (st = 1 ∧ k = 0) ∨ st = 0 ∨ st = 2

/-- a write has changed the index; the new frame is in its place -/
structure Late (n : Nat) (f : CpFifo α) (q : List α) (x : α) : Prop where
  room : q.length < n
  new : f.buf ((f.out + q.length) % n) = x
  mid : Mid f.state q.length

def At (n : Nat) (f : CpFifo α) (q : List α) : Option (α × PutPc) → Prop
  | none => Flag n f.state q.length ∧ f.inn = (f.out + q.length) % n
  | some (x, pc) =>
    match pc with
    | .check => Flag n f.state q.length ∧ f.inn = (f.out + q.length) % n
    | .ptr => (Flag n f.state q.length ∧ f.inn = (f.out + q.length) % n) ∧ q.length < n
    | .copy i => (Flag n f.state q.length ∧ f.inn = (f.out + q.length) % n) ∧ q.length < n ∧ i = f.inn
    | .inc => (Flag n f.state q.length ∧ f.inn = (f.out + q.length) % n) ∧ q.length < n ∧ f.buf f.inn = x
    | .incW v => (Flag n f.state q.length ∧ f.inn = (f.out + q.length) % n) ∧ q.length < n ∧ f.buf f.inn = x ∧ v = f.inn + 1
    | .wrap => Late n f q x ∧ f.inn = (f.out + q.length) % n + 1
    | .wrapW => Late n f q x ∧ f.inn = (f.out + q.length) % n + 1 ∧ f.inn = n
    | .cmp => Late n f q x ∧ f.inn = (f.out + (q.length + 1)) % n
    | .setFull => Late n f q x ∧ f.inn = (f.out + (q.length + 1)) % n
    | .clr => Late n f q x ∧ f.inn = (f.out + (q.length + 1)) % n ∧ (q.length + 1 = n → f.state = 2)
    | .clrW v => Late n f q x ∧ f.inn = (f.out + (q.length + 1)) % n ∧ (q.length + 1 = n → v = 2) ∧ (v = 0 ∨ v = 2)

structure Inv (n : Nat) (w : FifoIrq α) (q : List α) : Prop where
  core : Core n w.f q
  at_ : At n w.f q w.pc
  acc : w.acc = w.got ++ q

theorem Core.place {n : Nat} {f : CpFifo α} {q : List α} (c : Core n f q) : (f.out + q.length) % n < n := Nat.mod_lt _ c.pos

theorem Core.next {n : Nat} {f : CpFifo α} {q : List α} (c : Core n f q) (h : q.length < n) :
    (if n ≤ (f.out + q.length) % n + 1 then 0 else (f.out + q.length) % n + 1) = (f.out + (q.length + 1)) % n := by
  have ho := c.out
  rw [mod_cases ho (by omega), mod_cases ho (by omega)]
  split <;> split <;> split <;> omega

theorem Core.start (n : Nat) (hn : 0 < n) (h32 : n < 2 ^ 32) (b : Nat → α) : Inv n (start n b) [] :=
  ⟨⟨hn, h32, rfl, hn, Nat.zero_le _, fun i h => by simp at h⟩,
    ⟨⟨fun _ => rfl, fun h => (by simp at h; omega), fun h => (by simp at h)⟩, by simp [FifoIrq.start, CpFifo.init]⟩, rfl⟩

/-- taking a frame: the places -/
theorem Core.take {n : Nat} {f : CpFifo α} {y : α} {q : List α} (c : Core n f (y :: q)) :
    Core n f.incOut q ∧ f.incOut.out = (f.out + 1) % n ∧ f.buf f.out = y := by
  have hp := c.pos; have ho := c.out; have hl := c.len; have hu := c.u32
  simp only [List.length_cons] at hl
  have e1 : LiCan.u32 (f.out + 1) = f.out + 1 := Nat.mod_eq_of_lt (by omega)
  have e2 : (if n ≤ f.out + 1 then 0 else f.out + 1) = (f.out + 1) % n := by
    rw [mod_cases ho (by omega)]; split <;> split <;> omega
  have hb := c.buf 0 (by simp)
  rw [Nat.add_zero, Nat.mod_eq_of_lt ho] at hb
  have eo : f.incOut.out = (f.out + 1) % n := by
    unfold CpFifo.incOut
    dsimp only
    rw [c.max, e1, e2]
  refine ⟨⟨hp, hu, c.max, by rw [eo]; exact Nat.mod_lt _ hp, by omega, ?_⟩, eo, hb⟩
  intro i hlt
  have := c.buf (i + 1) (by simp; omega)
  simp only [List.getElem_cons_succ] at this
  rw [← this, eo, Nat.mod_add_mod]
  show f.buf _ = f.buf _
  congr 2
  omega

theorem shift_mod (a k n : Nat) : ((a + 1) % n + k) % n = (a + (k + 1)) % n := by
  rw [Nat.mod_add_mod]; congr 1; omega

/-- taking a frame: the flag -/
theorem Core.takeState {n : Nat} {f : CpFifo α} {y : α} {q : List α} (c : Core n f (y :: q)) :
    f.incOut.state = (if f.inn = (f.out + 1) % n then 1#32 else f.state) &&& 0xFFFFFFFD#32 := by
  have hp := c.pos; have ho := c.out; have hl := c.len; have hu := c.u32
  have e1 : LiCan.u32 (f.out + 1) = f.out + 1 := Nat.mod_eq_of_lt (by omega)
  have e2 : (if n ≤ f.out + 1 then 0 else f.out + 1) = (f.out + 1) % n := by
    rw [mod_cases ho (by omega)]; split <;> split <;> omega
  unfold CpFifo.incOut
  dsimp only
  rw [c.max, e1, e2]

theorem flag_take {n : Nat} {f : CpFifo α} {y : α} {q : List α} (c : Core n f (y :: q))
    (h : Flag n f.state (y :: q).length ∧ f.inn = (f.out + (y :: q).length) % n) :
    Flag n f.incOut.state q.length ∧ f.incOut.inn = (f.incOut.out + q.length) % n := by
  have hl := c.len
  simp only [List.length_cons] at hl h
  obtain ⟨h1, h2⟩ := h
  obtain ⟨-, eo, -⟩ := c.take
  refine ⟨?_, by rw [eo, shift_mod]; exact h2⟩
  rw [c.takeState, h2]
  have hs := h1.2.2 (by omega)
  by_cases h0 : q.length = 0
  · rw [if_pos (by rw [h0])]
    exact ⟨fun _ => rfl, fun e => by have := c.pos; omega, fun e => by omega⟩
  · rw [if_neg]
    · refine ⟨fun e => absurd e h0, fun e => by omega, fun _ => .inl ?_⟩
      rcases hs with e | e <;> rw [e] <;> rfl
    · intro e
      have := mod_inj_of_lt (sz := n) (a := f.out + 1) (i := q.length) (j := 0) (by omega) c.pos
        (by rw [← Nat.add_assoc] at e; rw [Nat.add_right_comm, e])
      omega

theorem late_take {n : Nat} {f : CpFifo α} {y : α} {q : List α} {x : α} (c : Core n f (y :: q)) (l : Late n f (y :: q) x)
    (hi : f.inn = (f.out + (y :: q).length) % n + 1 ∨ f.inn = (f.out + ((y :: q).length + 1)) % n) :
    Late n f.incOut q x ∧ f.incOut.state = 0 := by
  have hr := l.room
  have hn := l.new
  simp only [List.length_cons] at hr hi hn
  obtain ⟨-, eo, -⟩ := c.take
  have hs : f.incOut.state = 0 := by
    rw [c.takeState, if_neg]
    · rcases l.mid with ⟨-, e⟩ | e | e
      · simp at e
      · rw [e]; rfl
      · rw [e]; rfl
    · have ho := c.out
      rw [mod_cases ho (by omega), mod_cases ho (by omega)] at hi
      rw [mod_cases ho (by omega)]
      rcases hi with hi | hi <;> (rw [hi]; split <;> split <;> omega)
  refine ⟨⟨by omega, ?_, .inr (.inl hs)⟩, hs⟩
  rw [eo, shift_mod]
  exact hn

/-- the transmit interrupt takes the oldest frame whose write has finished -/
theorem Inv.take {n : Nat} {w : FifoIrq α} {q : List α} (h : Inv n w q) (hg : w.take.got.length ≤ w.take.acc.length) :
    ∃ q', Inv n w.take q' := by
  obtain ⟨c, a, e⟩ := h
  unfold FifoIrq.take CpFifo.take at *
  by_cases he : w.f.isEmpty = true
  · rw [if_pos he]
    exact ⟨q, c, a, by simpa using e⟩
  · simp only [if_neg he] at hg ⊢
    cases q with
    | nil =>
      rw [e] at hg
      simp at hg
      omega
    | cons y q =>
      obtain ⟨c1, c2, c3⟩ := c.take
      refine ⟨q, c1, ?_, ?_⟩
      · dsimp only
        generalize hpc : w.pc = p at a
        have late := fun {x : α} (l : Late n w.f (y :: q) x) hi => late_take c l hi
        have flag := flag_take c
        have hi : w.f.incOut.inn = w.f.inn := rfl
        have hs1 : (w.f.out + (y :: q).length) % n = (w.f.incOut.out + q.length) % n := by rw [c2, shift_mod]; rfl
        have hs2 : (w.f.out + ((y :: q).length + 1)) % n = (w.f.incOut.out + (q.length + 1)) % n := by rw [c2, shift_mod]; rfl
        match p, a with
        | none, a => exact flag a
        | some (x, .check), a => exact flag a
        | some (x, .ptr), a => exact ⟨flag a.1, Nat.lt_of_succ_lt a.2⟩
        | some (x, .copy i), a => exact ⟨flag a.1, Nat.lt_of_succ_lt a.2.1, a.2.2⟩
        | some (x, .inc), a => exact ⟨flag a.1, Nat.lt_of_succ_lt a.2.1, a.2.2⟩
        | some (x, .incW v), a => exact ⟨flag a.1, Nat.lt_of_succ_lt a.2.1, a.2.2.1, a.2.2.2⟩
        | some (x, .wrap), a => exact ⟨(late a.1 (.inl a.2)).1, by rw [hi, a.2, hs1]⟩
        | some (x, .wrapW), a => exact ⟨(late a.1 (.inl a.2.1)).1, by rw [hi, a.2.1, hs1], a.2.2⟩
        | some (x, .cmp), a => exact ⟨(late a.1 (.inr a.2)).1, by rw [hi, a.2, hs2]⟩
        | some (x, .setFull), a => exact ⟨(late a.1 (.inr a.2)).1, by rw [hi, a.2, hs2]⟩
        | some (x, .clr), a =>
          have := a.1.room
          exact ⟨(late a.1 (.inr a.2.1)).1, by rw [hi, a.2.1, hs2], fun e => by simp only [List.length_cons] at this; omega⟩
        | some (x, .clrW v), a =>
          have := a.1.room
          exact ⟨(late a.1 (.inr a.2.1)).1, by rw [hi, a.2.1, hs2], fun e => by simp only [List.length_cons] at this; omega, a.2.2.2⟩
      · dsimp only
        rw [e, c3]; simp

theorem Late.of {n : Nat} {f g : CpFifo α} {q : List α} {x : α} (l : Late n f q x) (h1 : g.out = f.out) (h2 : g.buf = f.buf)
    (h3 : Mid g.state q.length) : Late n g q x := ⟨l.room, by rw [h1, h2]; exact l.new, h3⟩

theorem Core.of {n : Nat} {f g : CpFifo α} {q : List α} (c : Core n f q) (h1 : g.out = f.out) (h2 : g.buf = f.buf) (h3 : g.max = f.max) :
    Core n g q := ⟨c.pos, c.u32, by rw [h3]; exact c.max, by rw [h1]; exact c.out, c.len, by rw [h1, h2]; exact c.buf⟩

theorem Core.write {n : Nat} {f : CpFifo α} {q : List α} (c : Core n f q) (hl : q.length < n) (x : α) :
    Core n { f with buf := upd f.buf ((f.out + q.length) % n) x } q := by
  refine ⟨c.pos, c.u32, c.max, c.out, c.len, fun i hi => ?_⟩
  dsimp only
  rw [← c.buf i hi]
  unfold upd
  rw [if_neg]
  intro e
  have := mod_inj_of_lt (by omega) hl e
  omega

theorem Core.snoc {n : Nat} {f : CpFifo α} {q : List α} (c : Core n f q) {x : α} (h : q.length < n)
    (hb : f.buf ((f.out + q.length) % n) = x) : Core n f (q ++ [x]) := by
  refine ⟨c.pos, c.u32, c.max, c.out, by simp; omega, fun i hi => ?_⟩
  by_cases hq : i < q.length
  · rw [List.getElem_append_left hq]; exact c.buf i hq
  · have : i = q.length := by simp at hi; omega
    subst this
    rw [hb]; simp

theorem Mid.mask {st : BitVec 32} {k : Nat} (h : Mid st k) : st &&& 0xFFFFFFFE#32 = 0 ∨ st &&& 0xFFFFFFFE#32 = 2 := by
  rcases h with ⟨e, -⟩ | e | e <;> rw [e]
  · exact .inl rfl
  · exact .inl rfl
  · exact .inr rfl

/-- the main loop goes on -/
theorem Inv.main {n : Nat} {w : FifoIrq α} {q : List α} (h : Inv n w q) : ∃ q', Inv n w.main q' := by
  obtain ⟨c, a, e⟩ := h
  have hp := c.place
  have hu := c.u32
  unfold FifoIrq.main
  generalize hpc : w.pc = p at a
  match p, a with
  | none, a => exact ⟨q, c, by rw [hpc]; exact a, e⟩
  | some (x, .check), a =>
    dsimp only
    by_cases hf : w.f.isFull = true
    · rw [if_pos hf]; exact ⟨q, c, a, e⟩
    · rw [if_neg hf]
      refine ⟨q, c, ⟨a, ?_⟩, e⟩
      have h1 := c.len
      have h2 : ¬ q.length = n := fun e => hf (by unfold CpFifo.isFull; rw [a.1.2.1 e]; rfl)
      omega
  | some (x, .ptr), a => exact ⟨q, c, ⟨a.1, a.2, rfl⟩, e⟩
  | some (x, .copy i), a =>
    obtain ⟨a, hl, rfl⟩ := a
    dsimp only
    refine ⟨q, ?_, ⟨a, hl, ?_⟩, e⟩
    · have := c.write hl x
      rw [← a.2] at this
      exact this
    · dsimp only; rw [upd_same]
  | some (x, .inc), a =>
    refine ⟨q, c, ⟨a.1, a.2.1, a.2.2, ?_⟩, e⟩
    have := a.1.2
    exact Nat.mod_eq_of_lt (by omega)
  | some (x, .incW v), a =>
    obtain ⟨⟨h1, h2⟩, hl, hb, rfl⟩ := a
    refine ⟨q, c.of rfl rfl rfl, ⟨⟨hl, ?_, ?_⟩, ?_⟩, e⟩
    · dsimp only; rw [← h2]; exact hb
    · by_cases h0 : q.length = 0
      · exact .inl ⟨h1.1 h0, h0⟩
      · exact .inr (h1.2.2 (by omega))
    · dsimp only; rw [h2]
  | some (x, .wrap), a =>
    dsimp only
    rw [c.max]
    have hnx := c.next a.1.room
    by_cases hw : n ≤ w.f.inn
    · rw [if_pos hw]
      refine ⟨q, c, ⟨a.1, a.2, ?_⟩, e⟩
      have := a.2
      show w.f.inn = n
      omega
    · rw [if_neg hw]
      refine ⟨q, c, ⟨a.1, ?_⟩, e⟩
      rw [a.2] at hw
      rw [if_neg hw] at hnx
      rw [← hnx]
      exact a.2
  | some (x, .wrapW), a =>
    have hnx := c.next a.1.room
    refine ⟨q, c.of rfl rfl rfl, ⟨a.1.of rfl rfl a.1.mid, ?_⟩, e⟩
    have h1 := a.2.1
    have h2 := a.2.2
    rw [if_pos (by omega)] at hnx
    dsimp only
    exact hnx
  | some (x, .cmp), a =>
    dsimp only
    by_cases hc : w.f.inn = w.f.out
    · rw [if_pos hc]; exact ⟨q, c, a, e⟩
    · rw [if_neg hc]
      refine ⟨q, c, ⟨a.1, a.2, fun hn => absurd ?_ hc⟩, e⟩
      rw [a.2, hn, Nat.add_mod_right]
      exact Nat.mod_eq_of_lt c.out
  | some (x, .setFull), a =>
    exact ⟨q, c.of rfl rfl rfl, ⟨a.1.of rfl rfl (.inr (.inr rfl)), a.2, fun _ => rfl⟩, e⟩
  | some (x, .clr), a =>
    exact ⟨q, c, ⟨a.1, a.2.1, fun hn => by rw [a.2.2 hn]; rfl, a.1.mid.mask⟩, e⟩
  | some (x, .clrW v), a =>
    obtain ⟨l, h1, h2, h3⟩ := a
    refine ⟨q ++ [x], (c.snoc l.room l.new).of rfl rfl rfl, ⟨⟨?_, ?_, ?_⟩, ?_⟩, ?_⟩
    · intro h; simp at h
    · intro h; rw [List.length_append] at h; exact h2 h
    · exact fun _ => h3
    · dsimp only; rw [List.length_append]; exact h1
    · dsimp only; rw [e, List.append_assoc]

theorem incIn_state (f : CpFifo α) (n : Nat) (hm : f.max = n) (hi : f.inn < n) (hn : n < 2 ^ 32) :
    f.incIn = { f with
      inn := if n ≤ f.inn + 1 then 0 else f.inn + 1
      state := (if (if n ≤ f.inn + 1 then 0 else f.inn + 1) = f.out then 2#32 else f.state) &&& 0xFFFFFFFE#32 } := by
  have e1 : LiCan.u32 (f.inn + 1) = f.inn + 1 := Nat.mod_eq_of_lt (by omega)
  unfold CpFifo.incIn
  rw [e1, hm]

/-- a write by an interrupt while the main loop is not in a write -/
theorem Inv.irqWrite {n : Nat} {w : FifoIrq α} {q : List α} (h : Inv n w q) (hpc : w.pc = none) (y : α) : ∃ q', Inv n (w.irqWrite y) q' := by
  -- the same as the steps of the main loop without interruption
  obtain ⟨c, a, e⟩ := h
  rw [hpc] at a
  unfold FifoIrq.irqWrite CpFifo.put
  by_cases hf : w.f.isFull = true
  · rw [if_pos hf]
    exact ⟨q, c, by dsimp only; rw [if_neg Bool.false_ne_true]; show At n _ _ w.pc; rw [hpc]; exact a, e⟩
  · rw [if_neg hf]
    dsimp only
    rw [if_pos rfl]
    have hl : q.length < n := by
      have h1 := c.len
      have h2 : ¬ q.length = n := fun e => hf (by unfold CpFifo.isFull; rw [a.1.2.1 e]; rfl)
      omega
    have hi := a.2
    have hp := c.place
    rw [incIn_state { w.f with buf := upd w.f.buf w.f.inn y } n c.max (by show w.f.inn < n; omega) c.u32]
    have hnx := c.next hl
    refine ⟨q ++ [y], ?_, ?_, ?_⟩
    · have h1 := c.write hl y
      have h2 := h1.snoc (x := y) hl (upd_same ..)
      rw [← hi] at h2
      exact h2.of rfl rfl rfl
    · show At n _ _ w.pc
      rw [hpc]
      refine ⟨?_, ?_⟩
      · dsimp only
        rw [hi, hnx, List.length_append, List.length_singleton]
        by_cases hk : q.length + 1 = n
        · rw [if_pos (by rw [hk, Nat.add_mod_right, Nat.mod_eq_of_lt c.out])]
          exact ⟨fun h => by omega, fun _ => rfl, fun _ => .inr rfl⟩
        · rw [if_neg]
          · refine ⟨fun h => by omega, fun h => absurd h hk, fun _ => ?_⟩
            by_cases h0 : q.length = 0
            · rw [a.1.1 h0]; exact .inl rfl
            · rcases a.1.2.2 (by omega) with e | e <;> rw [e]
              · exact .inl rfl
              · exact .inr rfl
          · have ho := c.out
            rw [mod_cases ho (by omega)]; split <;> omega
      · dsimp only
        rw [hi, hnx, List.length_append, List.length_singleton]
    · dsimp only; rw [e, List.append_assoc]

/-- no interrupt writes a frame while the main loop is in a write -/
def NoNest (w : FifoIrq α) (es : List (FifoEv α)) : Prop :=
  ∀ es1 y es2, es = es1 ++ .irqWrite y :: es2 → (w.run es1).pc = none

/-- the transmit interrupt never takes a frame before the write of it has finished -/
def NotAhead (w : FifoIrq α) (es : List (FifoEv α)) : Prop :=
  ∀ es1 es2, es = es1 ++ es2 → (w.run es1).got.length ≤ (w.run es1).acc.length

theorem Inv.run {n : Nat} (es : List (FifoEv α)) : ∀ {w : FifoIrq α} {q : List α}, Inv n w q → NoNest w es → NotAhead w es →
    ∃ q', Inv n (w.run es) q' := by
  induction es with
  | nil => exact fun h _ _ => ⟨_, h⟩
  | cons e es ih =>
    intro w q h h1 h2
    have key : ∃ q1, Inv n (w.step e) q1 := by
      cases e with
      | write x =>
        simp only [step]
        by_cases hp : w.pc.isNone = true
        · rw [if_pos hp]
          refine ⟨q, h.core, ?_, h.acc⟩
          have := h.at_
          rw [Option.isNone_iff_eq_none.1 hp] at this
          exact this
        · rw [if_neg hp]; exact ⟨q, h⟩
      | main => exact h.main
      | take => exact h.take (h2 [.take] es rfl)
      | irqWrite y => exact h.irqWrite (h1 [] y es rfl) y
    obtain ⟨q1, hq1⟩ := key
    exact ih hq1 (fun a y b hb => h1 (e :: a) y b (by rw [hb]; rfl)) (fun a b hb => h2 (e :: a) b (by rw [hb]; rfl))

theorem reached {n : Nat} (hn : 0 < n) (h32 : n < 2 ^ 32) (b : Nat → α) (es : List (FifoEv α)) (h1 : NoNest (start n b) es)
    (h2 : NotAhead (start n b) es) : ∃ q, Inv n ((start n b).run es) q := Inv.run es (Core.start n hn h32 b) h1 h2

theorem Flag.empty {n : Nat} {st : BitVec 32} {k : Nat} (h : Flag n st k) : st = 1 ↔ k = 0 := by
  refine ⟨fun e => Classical.byContradiction fun hk => ?_, h.1⟩
  rcases h.2.2 (by omega) with e1 | e1 <;> rw [e] at e1 <;> exact absurd e1 (by decide)

/-- C133, what holds: over any history of writes by the main loop, of transmit interrupts between any two steps of them, and of writes by
interrupts between them - if no frame is taken before the write of it has finished.  The frames taken are the first ones of the frames
written, in order, none lost or doubled; at most `n` wait; between two writes the FIFO reports that it is empty exactly if none waits, and then
the next interrupt takes the oldest. -/
theorem C133_partial {n : Nat} (hn : 0 < n) (h32 : n < 2 ^ 32) (b : Nat → α) (es : List (FifoEv α)) (h1 : NoNest (start n b) es)
    (h2 : NotAhead (start n b) es) :
    ((start n b).run es).got <+: ((start n b).run es).acc ∧
    ((start n b).run es).acc.length ≤ ((start n b).run es).got.length + n ∧
    (((start n b).run es).pc = none →
      (((start n b).run es).f.isEmpty = true ↔ ((start n b).run es).acc = ((start n b).run es).got)) := by
  obtain ⟨q, c, a, e⟩ := reached hn h32 b es h1 h2
  generalize (start n b).run es = w at c a e
  refine ⟨⟨q, e.symm⟩, by rw [e, List.length_append]; have := c.len; omega, fun hp => ?_⟩
  rw [hp] at a
  have := a.1.empty
  unfold CpFifo.isEmpty
  rw [e, beq_iff_eq, this]
  simp

/-- the writes begun in a history: those of interrupts, and those the main loop begins when it is not in one -/
def begun (w : FifoIrq α) : List (FifoEv α) → Nat
  | [] => 0
  | .irqWrite y :: es => 1 + begun (w.step (.irqWrite y)) es
  | .write x :: es => (if w.pc.isNone then 1 else 0) + begun (w.step (.write x)) es
  | e :: es => begun (w.step e) es

theorem main_count (w : FifoIrq α) : w.main.acc.length + w.main.refd + (if w.main.pc.isSome then 1 else 0) =
    w.acc.length + w.refd + (if w.pc.isSome then 1 else 0) := by
  unfold main
  split
  · rfl
  · next x pc hp =>
    rw [hp]
    split
    · split <;> simp
      omega
    all_goals first | rfl | (simp; omega)

/-- C133, accounts: in every history, whatever the interrupts do, each write begun has been accepted once, or refused once, or is the one in
progress. -/
theorem C133_accounted (es : List (FifoEv α)) : ∀ w : FifoIrq α,
    (w.run es).acc.length + (w.run es).refd + (if (w.run es).pc.isSome then 1 else 0) =
      w.acc.length + w.refd + (if w.pc.isSome then 1 else 0) + begun w es := by
  induction es with
  | nil => intro w; rfl
  | cons e es ih =>
    intro w
    have h : (w.run (e :: es)) = (w.step e).run es := rfl
    rw [h, ih (w.step e)]
    cases e with
    | main =>
      have := main_count w
      show w.main.acc.length + w.main.refd + _ + _ = _ + begun w.main es
      show w.main.acc.length + w.main.refd + (if w.main.pc.isSome then 1 else 0) + begun w.main es = _
      omega
    | take => rfl
    | write x =>
      show _ = _ + ((if w.pc.isNone then 1 else 0) + begun (w.step (.write x)) es)
      cases hp : w.pc with
      | none => simp [step, hp]; omega
      | some p => simp [step, hp]
    | irqWrite y =>
      show _ = _ + (1 + begun (w.step (.irqWrite y)) es)
      have : (w.step (.irqWrite y)).acc.length + (w.step (.irqWrite y)).refd = w.acc.length + w.refd + 1 ∧
          (w.step (.irqWrite y)).pc = w.pc := by
        simp only [step, irqWrite]
        split
        · simp; omega
        · simp; omega
      rw [this.2]
      omega

/-- two writes of the main loop, one by an interrupt that is refused: room for one frame -/
example : let w := (start 1 fun _ => 0).run (.write 7 :: List.replicate 12 .main ++ [.irqWrite 8, .write 9])
    w.acc = [7] ∧ w.refd = 1 ∧ w.pc.isSome = true ∧
    begun (start 1 fun _ => 0) (.write 7 :: List.replicate 12 .main ++ [.irqWrite 8, .write 9]) = 3 := by decide +kernel

/-- C133, refusals: a write of the main loop is refused only if a frame is waiting - so there will be a transmit interrupt, after which there is room.
(Not only if `n` wait: `C133_refused_early`.) -/
theorem C133_refused {n : Nat} (hn : 0 < n) (h32 : n < 2 ^ 32) (b : Nat → α) (es : List (FifoEv α)) (h1 : NoNest (start n b) es)
    (h2 : NotAhead (start n b) es) (hr : (((start n b).run es).main).refd ≠ ((start n b).run es).refd) :
    ((start n b).run es).got.length < ((start n b).run es).acc.length := by
  obtain ⟨q, c, a, e⟩ := reached hn h32 b es h1 h2
  generalize (start n b).run es = w at c a e hr
  rw [e, List.length_append]
  suffices h : q.length ≠ 0 by omega
  intro h0
  unfold main at hr
  generalize hpc : w.pc = p at a hr
  match p, a, hr with
  | none, a, hr => exact hr rfl
  | some (x, .check), a, hr =>
    dsimp only at hr
    rw [if_neg] at hr
    · exact hr rfl
    · unfold CpFifo.isFull
      rw [a.1.1 h0]
      decide
  | some (x, .ptr), a, hr => exact hr rfl
  | some (x, .copy i), a, hr => exact hr rfl
  | some (x, .inc), a, hr => exact hr rfl
  | some (x, .incW v), a, hr => exact hr rfl
  | some (x, .wrap), a, hr => exact hr rfl
  | some (x, .wrapW), a, hr => exact hr rfl
  | some (x, .cmp), a, hr => exact hr rfl
  | some (x, .setFull), a, hr => exact hr rfl
  | some (x, .clr), a, hr => exact hr rfl
  | some (x, .clrW v), a, hr => exact hr rfl

/-- C133, memory: the array is written and read inside its bounds. -/
theorem C133_bounds {n : Nat} (hn : 0 < n) (h32 : n < 2 ^ 32) (b : Nat → α) (es : List (FifoEv α)) (h1 : NoNest (start n b) es)
    (h2 : NotAhead (start n b) es) :
    (∀ x i, ((start n b).run es).pc = some (x, .copy i) → i < n) ∧ ((start n b).run es).f.out < n ∧
    (((start n b).run es).pc = none → ((start n b).run es).f.inn < n) := by
  obtain ⟨q, c, a, e⟩ := reached hn h32 b es h1 h2
  generalize (start n b).run es = w at c a e
  refine ⟨fun x i hp => ?_, c.out, fun hp => ?_⟩
  · rw [hp] at a
    rw [a.2.2, a.1.2]
    exact c.place
  · rw [hp] at a
    rw [a.2]
    exact c.place

theorem mask_ne (st : BitVec 32) : st &&& 0xFFFFFFFE#32 ≠ 1 := by
  intro e
  have := congrArg (fun v => v.getLsbD 0) e
  simp at this

/-- the write has changed the index -/
def _root_.LiCan.PutPc.Late : PutPc → Prop
  | .wrap | .wrapW | .cmp | .setFull | .clr => True
  | .clrW v => v ≠ 1
  | _ => False

/-- whatever happened before, a write that has changed the index ends with a FIFO that is not reported as empty -/
theorem finish (w : FifoIrq α) (x : α) (pc : PutPc) (hpc : w.pc = some (x, pc))
    (h : pc.Late) :
    ∃ k, (w.run (List.replicate k .main)).pc = none ∧ (w.run (List.replicate k .main)).acc = w.acc ++ [x] ∧
      (w.run (List.replicate k .main)).got = w.got ∧ (w.run (List.replicate k .main)).f.isEmpty = false := by
  have back : ∀ {w w1 : FifoIrq α}, w.main = w1 → w1.acc = w.acc → w1.got = w.got →
      (∃ k, (w1.run (List.replicate k .main)).pc = none ∧ (w1.run (List.replicate k .main)).acc = w1.acc ++ [x] ∧
        (w1.run (List.replicate k .main)).got = w1.got ∧ (w1.run (List.replicate k .main)).f.isEmpty = false) →
      ∃ k, (w.run (List.replicate k .main)).pc = none ∧ (w.run (List.replicate k .main)).acc = w.acc ++ [x] ∧
        (w.run (List.replicate k .main)).got = w.got ∧ (w.run (List.replicate k .main)).f.isEmpty = false := by
    rintro w w1 e ea eg ⟨k, h1, h2, h3, h4⟩
    have : w.run (List.replicate (k + 1) .main) = w1.run (List.replicate k .main) := by
      rw [← e]; rfl
    exact ⟨k + 1, by rw [this]; exact h1, by rw [this, h2, ea], by rw [this, h3, eg], by rw [this]; exact h4⟩
  have hW : ∀ (w : FifoIrq α) v, w.pc = some (x, .clrW v) → v ≠ 1 → ∃ k, (w.run (List.replicate k .main)).pc = none ∧
      (w.run (List.replicate k .main)).acc = w.acc ++ [x] ∧ (w.run (List.replicate k .main)).got = w.got ∧
      (w.run (List.replicate k .main)).f.isEmpty = false := by
    intro w v hp hv
    have e : w.main = { w with f := { w.f with state := v }, pc := none, acc := w.acc ++ [x] } := by unfold main; rw [hp]
    have e1 : w.run (List.replicate 1 .main) = w.main := rfl
    refine ⟨1, by rw [e1, e], by rw [e1, e], by rw [e1, e], ?_⟩
    rw [e1, e]
    show (v == 1) = false
    simpa using hv
  have hC : ∀ (w : FifoIrq α), w.pc = some (x, .clr) → ∃ k, (w.run (List.replicate k .main)).pc = none ∧
      (w.run (List.replicate k .main)).acc = w.acc ++ [x] ∧ (w.run (List.replicate k .main)).got = w.got ∧
      (w.run (List.replicate k .main)).f.isEmpty = false := by
    intro w hp
    refine back (w1 := { w with pc := some (x, .clrW (w.f.state &&& 0xFFFFFFFE#32)) }) (by unfold main; rw [hp]) rfl rfl (hW _ _ rfl (mask_ne _))
  have hF : ∀ (w : FifoIrq α), w.pc = some (x, .setFull) → ∃ k, (w.run (List.replicate k .main)).pc = none ∧
      (w.run (List.replicate k .main)).acc = w.acc ++ [x] ∧ (w.run (List.replicate k .main)).got = w.got ∧
      (w.run (List.replicate k .main)).f.isEmpty = false := by
    intro w hp
    exact back (w1 := { w with f := { w.f with state := 2#32 }, pc := some (x, .clr) }) (by unfold main; rw [hp]) rfl rfl (hC _ rfl)
  have hM : ∀ (w : FifoIrq α), w.pc = some (x, .cmp) → ∃ k, (w.run (List.replicate k .main)).pc = none ∧
      (w.run (List.replicate k .main)).acc = w.acc ++ [x] ∧ (w.run (List.replicate k .main)).got = w.got ∧
      (w.run (List.replicate k .main)).f.isEmpty = false := by
    intro w hp
    refine back (w1 := { w with pc := some (x, if w.f.inn = w.f.out then .setFull else .clr) }) (by unfold main; rw [hp]) rfl rfl ?_
    by_cases hi : w.f.inn = w.f.out
    · rw [if_pos hi]; exact hF _ rfl
    · rw [if_neg hi]; exact hC _ rfl
  have hP : ∀ (w : FifoIrq α), w.pc = some (x, .wrapW) → ∃ k, (w.run (List.replicate k .main)).pc = none ∧
      (w.run (List.replicate k .main)).acc = w.acc ++ [x] ∧ (w.run (List.replicate k .main)).got = w.got ∧
      (w.run (List.replicate k .main)).f.isEmpty = false := by
    intro w hp
    exact back (w1 := { w with f := { w.f with inn := 0 }, pc := some (x, .cmp) }) (by unfold main; rw [hp]) rfl rfl (hM _ rfl)
  match pc, hpc, h with
  | .wrap, hpc, _ =>
    refine back (w1 := { w with pc := some (x, if w.f.max ≤ w.f.inn then .wrapW else .cmp) }) (by unfold main; rw [hpc]) rfl rfl ?_
    by_cases hi : w.f.max ≤ w.f.inn
    · rw [if_pos hi]; exact hP _ rfl
    · rw [if_neg hi]; exact hM _ rfl
  | .wrapW, hpc, _ => exact hP w hpc
  | .cmp, hpc, _ => exact hM w hpc
  | .setFull, hpc, _ => exact hF w hpc
  | .clr, hpc, _ => exact hC w hpc
  | .clrW v, hpc, h => exact hW w v hpc h

theorem run_append (w : FifoIrq α) (a b : List (FifoEv α)) : w.run (a ++ b) = (w.run a).run b := List.foldl_append

/-- C133: the condition of `C133_partial` is necessary.  If the transmit interrupt takes a frame before the write of it has finished, the FIFO is
not empty for the interrupt once the write has finished although every frame written has been taken: the next interrupt transmits a frame again. -/
theorem C133_ahead {n : Nat} (hn : 0 < n) (h32 : n < 2 ^ 32) (b : Nat → α) (es : List (FifoEv α)) (h1 : NoNest (start n b) es)
    (h2 : NotAhead (start n b) es) (h3 : ¬ NotAhead (start n b) (es ++ [.take])) :
    ∃ k, let w := (start n b).run (es ++ .take :: List.replicate k .main)
      w.pc = none ∧ w.acc = w.got ∧ w.f.isEmpty = false ∧ w.take.got.length = w.acc.length + 1 := by
  obtain ⟨q, c, a, e⟩ := reached hn h32 b es h1 h2
  have hg : ¬ ((start n b).run es).take.got.length ≤ ((start n b).run es).take.acc.length := by
    intro hle
    apply h3
    intro a1 a2 ha
    rcases List.append_eq_append_iff.1 ha with ⟨l, e1, e2⟩ | ⟨l, e1, e2⟩
    · cases l with
      | nil => rw [e1, List.append_nil]; exact h2 es [] (by simp)
      | cons z l =>
        simp at e2
        obtain ⟨rfl, rfl, rfl⟩ := e2
        rw [e1, run_append]
        exact hle
    · exact h2 a1 l e1
  simp only [run_append]
  generalize (start n b).run es = w at c a e hg
  show ∃ k, ((w.take.run (List.replicate k .main)).pc = none ∧ _)
  have ht : w.f.isEmpty = false ∧ q = [] := by
    unfold FifoIrq.take CpFifo.take at hg
    by_cases he : w.f.isEmpty = true
    · rw [if_pos he, e] at hg
      simp at hg
    · refine ⟨by simpa using he, ?_⟩
      simp only [if_neg he, e] at hg
      simpa using hg
  obtain ⟨he, rfl⟩ := ht
  have hst : ¬ w.f.state = 1 := by
    unfold CpFifo.isEmpty at he
    simpa using he
  have late : ∃ x pc, w.pc = some (x, pc) ∧ Late n w.f [] x ∧
      pc.Late := by
    generalize hpc : w.pc = p at a
    match p, a with
    | none, a => exact absurd (a.1.1 rfl) hst
    | some (x, .check), a => exact absurd (a.1.1 rfl) hst
    | some (x, .ptr), a => exact absurd (a.1.1.1 rfl) hst
    | some (x, .copy i), a => exact absurd (a.1.1.1 rfl) hst
    | some (x, .inc), a => exact absurd (a.1.1.1 rfl) hst
    | some (x, .incW v), a => exact absurd (a.1.1.1 rfl) hst
    | some (x, .wrap), a => exact ⟨x, .wrap, rfl, a.1, trivial⟩
    | some (x, .wrapW), a => exact ⟨x, .wrapW, rfl, a.1, trivial⟩
    | some (x, .cmp), a => exact ⟨x, .cmp, rfl, a.1, trivial⟩
    | some (x, .setFull), a => exact ⟨x, .setFull, rfl, a.1, trivial⟩
    | some (x, .clr), a => exact ⟨x, .clr, rfl, a.1, trivial⟩
    | some (x, .clrW v), a =>
      refine ⟨x, .clrW v, rfl, a.1, fun e => ?_⟩
      rcases a.2.2.2 with e1 | e1 <;> rw [e1] at e <;> exact absurd e (by decide)
  obtain ⟨x, pc, hp, hl, hm⟩ := late
  have hx : w.f.buf w.f.out = x := (c.snoc hl.room hl.new).take.2.2
  have htk : w.take = { w with f := w.f.incOut, got := w.got ++ [x] } := by
    unfold FifoIrq.take CpFifo.take
    rw [if_neg (by rw [he]; decide)]
    dsimp only
    rw [hx]
    rfl
  obtain ⟨k, f1, f2, f3, f4⟩ := finish w.take x pc (by rw [htk]; exact hp) hm
  have ha : (w.take.run (List.replicate k .main)).acc = (w.take.run (List.replicate k .main)).got := by
    rw [f2, f3, htk]
    dsimp only
    rw [e, List.append_nil]
  refine ⟨k, f1, ha, f4, ?_⟩
  show (w.take.run (List.replicate k .main)).take.got.length = (w.take.run (List.replicate k .main)).acc.length + 1
  generalize w.take.run (List.replicate k .main) = v at ha f4 ⊢
  rw [ha]
  show (v.got ++ v.f.take.2.toList).length = _
  unfold CpFifo.take
  rw [if_neg (by rw [f4]; decide)]
  simp

/-! ## Examples and counterexamples -/

/-- a whole write without interruption -/
def exWrite (x : Nat) : List (FifoEv Nat) := .write x :: List.replicate 12 .main

theorem notAhead_of {w : FifoIrq α} {es : List (FifoEv α)}
    (h : ∀ k, k < es.length + 1 → (w.run (es.take k)).got.length ≤ (w.run (es.take k)).acc.length) : NotAhead w es := by
  intro a b e
  have h1 := h a.length (by rw [e, List.length_append]; omega)
  have h2 : es.take a.length = a := by rw [e]; simp
  rw [h2] at h1
  exact h1

theorem noNest_of {w : FifoIrq α} {es : List (FifoEv α)} (h : ∀ e ∈ es, ∀ y, e ≠ .irqWrite y) : NoNest w es := by
  intro a y b e
  exact absurd rfl (h (.irqWrite y) (by rw [e]; simp) y)

/-- three writes with interrupts in them -/
def exHist : List (FifoEv Nat) :=
  exWrite 7 ++ .write 8 :: List.replicate 6 .main ++ .take :: List.replicate 8 .main ++ exWrite 9 ++ [.take]

/-- C133: the conditions hold -/
example : NoNest (start 2 fun _ => 0) exHist ∧ NotAhead (start 2 fun _ => 0) exHist ∧
    ((start 2 fun _ => 0).run exHist).acc = [7, 8, 9] ∧ ((start 2 fun _ => 0).run exHist).got = [7, 8] ∧
    ((start 2 fun _ => 0).run exHist).pc = none := by
  refine ⟨noNest_of ?_, notAhead_of (by decide +kernel), by decide +kernel⟩
  intro e he y h
  subst h
  simp [exHist, exWrite] at he

/-- C133: the second interrupt in a write takes the frame that is being written; until then the conditions hold -/
example : let es := exWrite 7 ++ .write 8 :: List.replicate 7 .main ++ [.take]
    NotAhead (start 2 fun _ => 0) es ∧ ¬ NotAhead (start 2 fun _ => 0) (es ++ [.take]) :=
  ⟨notAhead_of (by decide +kernel), fun h => absurd (h _ [] (List.append_nil _).symm) (by decide +kernel)⟩

/-- C133: refused although only one of two places is in use - the interrupt came between the comparison and the flag -/
theorem C133_refused_early :
    ∃ es : List (FifoEv Nat), let w := (start 2 fun _ => 0).run es
      w.acc = [7, 8] ∧ w.got = [7] ∧ w.refd = 0 ∧ (w.run (exWrite 9)).refd = 1 ∧ (w.run (.take :: exWrite 9)).acc = [7, 8, 9] :=
  ⟨exWrite 7 ++ .write 8 :: List.replicate 8 .main ++ .take :: List.replicate 8 .main, by decide +kernel⟩

/-- C133 is false without the condition: two interrupts in the second write; the two frames are transmitted twice. -/
theorem C133_counterexample_twice :
    ∃ es : List (FifoEv Nat), let w := (start 2 fun _ => 0).run es
      w.acc = [7, 8] ∧ w.got = [7, 8, 7, 8] :=
  ⟨exWrite 7 ++ .write 8 :: List.replicate 7 .main ++ .take :: .take :: List.replicate 8 .main ++ [.take, .take], by decide +kernel⟩

/-- C133 is false if an interrupt writes a frame (the answer to a process request) during a write of the main loop: the frame 8 is lost, and a place
that was not written is transmitted. -/
theorem C133_counterexample_lost :
    ∃ es : List (FifoEv Nat), let w := (start 16 fun _ => 0).run es
      w.acc = [7, 9, 8] ∧ w.got = [7, 9, 0] ∧ w.pc = none :=
  ⟨exWrite 7 ++ .write 8 :: List.replicate 3 .main ++ .irqWrite 9 :: List.replicate 8 .main ++ [.take, .take, .take], by decide +kernel⟩

/-- C133: in that case a frame may even be written behind the array. -/
theorem C133_counterexample_memory :
    ∃ es : List (FifoEv Nat), ((start 16 fun _ => 0).run es).f.buf 16 = 9 :=
  ⟨(List.range 15).flatMap (fun i => exWrite (i + 1) ++ [.take]) ++ .write 8 :: List.replicate 5 .main ++ [.irqWrite 9], by decide +kernel⟩

end FifoIrq
end LiCan
