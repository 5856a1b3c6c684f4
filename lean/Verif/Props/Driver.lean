import Verif.Model.Driver
import Verif.Spec.Driver
import Verif.Lemmas.Ring
/-! # The transmit path of the driver (C83, C84) -/
namespace LiCan
open Spec
namespace CpFifo
variable {α : Type}

/-- one operation -/
def step (f : CpFifo α) : FOp α → CpFifo α × FOut α
  | .put x => let r := f.put x; (r.1, .accepted r.2)
  | .take => let r := f.take; (r.1, .got r.2)
  | .free => (f, .num f.free)
  | .pending => (f, .num f.pending)
  | .isEmpty => (f, .bool f.isEmpty)
  | .isFull => (f, .bool f.isFull)

/-- a history -/
def run : CpFifo α → List (FOp α) → CpFifo α × List (FOut α)
  | f, [] => (f, [])
  | f, o :: os =>
    let r := f.step o
    let t := run r.1 os
    (t.1, r.2 :: t.2)

/-- the FIFO holds exactly `q` -/
structure Holds (n : Nat) (f : CpFifo α) (q : List α) : Prop where
  pos : 0 < n
  u32 : n < 2 ^ 32
  max : f.max = n
  out : f.out < n
  len : q.length ≤ n
  inn : f.inn = (f.out + q.length) % n
  state : f.state = if q.length = 0 then 1 else if q.length = n then 2 else 0
  buf : ∀ i (h : i < q.length), f.buf ((f.out + i) % n) = q[i]

theorem Holds.init {n : Nat} (h : 0 < n) (h2 : n < 2 ^ 32) (f : CpFifo α) : Holds n (f.init n) [] :=
  ⟨h, h2, rfl, h, Nat.zero_le _, by simp [CpFifo.init], rfl, fun i h => by simp at h⟩

theorem Holds.empty {n : Nat} {f : CpFifo α} {q : List α} (h : Holds n f q) : f.isEmpty = q.isEmpty := by
  have hp := h.pos
  unfold isEmpty
  rw [h.state]
  cases q with
  | nil => rfl
  | cons x q =>
    simp only [List.length_cons, Nat.add_eq_zero_iff, Nat.one_ne_zero, and_false, if_false]
    split <;> rfl

theorem Holds.full {n : Nat} {f : CpFifo α} {q : List α} (h : Holds n f q) : f.isFull = (q.length == n) := by
  have hp := h.pos
  unfold isFull
  rw [h.state]
  by_cases h1 : q.length = n
  · rw [if_neg (by omega), if_pos h1, h1]; simp
  · have : (q.length == n) = false := by simpa using h1
    rw [this, if_neg h1]
    split <;> rfl

theorem Holds.pend {n : Nat} {f : CpFifo α} {q : List α} (h : Holds n f q) : f.pending = q.length := by
  have hp := h.pos; have ho := h.out; have hl := h.len; have hi := h.inn; have hs := h.state
  unfold pending
  rw [mod_cases ho hl] at hi
  rw [h.max]
  by_cases h0 : q.length = 0
  · rw [if_pos h0] at hs; rw [if_pos hs, h0]
  · rw [if_neg h0] at hs
    by_cases h1 : q.length = n
    · rw [if_pos h1] at hs; rw [if_neg (by rw [hs]; decide), if_pos hs, h1]
    · rw [if_neg h1] at hs; rw [if_neg (by rw [hs]; decide), if_neg (by rw [hs]; decide)]
      split at hi <;> split <;> omega

theorem Holds.fre {n : Nat} {f : CpFifo α} {q : List α} (h : Holds n f q) : f.free = n - q.length := by
  have hp := h.pos; have ho := h.out; have hl := h.len; have hi := h.inn; have hs := h.state
  unfold free
  rw [mod_cases ho hl] at hi
  rw [h.max]
  by_cases h0 : q.length = 0
  · rw [if_pos h0] at hs; rw [if_pos hs, h0]; rfl
  · rw [if_neg h0] at hs
    by_cases h1 : q.length = n
    · rw [if_pos h1] at hs; rw [if_neg (by rw [hs]; decide), if_pos hs, h1, Nat.sub_self]
    · rw [if_neg h1] at hs; rw [if_neg (by rw [hs]; decide), if_neg (by rw [hs]; decide)]
      split at hi <;> split <;> omega

theorem Holds.putOk {n : Nat} {f : CpFifo α} {q : List α} (h : Holds n f q) (hl : q.length < n) (x : α) :
    Holds n { f with buf := upd f.buf f.inn x }.incIn (q ++ [x]) := by
  have hp := h.pos; have ho := h.out; have hi := h.inn; have hs := h.state; have hu := h.u32
  have hin : f.inn < n := by rw [hi]; exact Nat.mod_lt _ hp
  have e1 : LiCan.u32 (f.inn + 1) = f.inn + 1 := Nat.mod_eq_of_lt (by omega)
  have e2 : (if n ≤ f.inn + 1 then 0 else f.inn + 1) = (f.out + (q.length + 1)) % n := by
    rw [mod_cases ho (by omega)] at hi ⊢
    split at hi <;> split <;> split <;> omega
  unfold incIn
  dsimp only
  rw [h.max, e1, e2]
  refine ⟨hp, hu, rfl, ho, by simp; omega, by simp, ?_, ?_⟩
  · dsimp only
    rw [List.length_append, List.length_singleton, if_neg (by omega : ¬ q.length + 1 = 0)]
    by_cases hf : q.length + 1 = n
    · rw [if_pos hf, if_pos (by rw [hf, Nat.add_mod_right, Nat.mod_eq_of_lt ho])]; rfl
    · rw [if_neg hf, if_neg, hs]
      · split
        · rfl
        · rw [if_neg (by omega)]; rfl
      · rw [mod_cases ho (by omega)]; split <;> omega
  · intro i hlt
    dsimp only
    simp only [List.length_append, List.length_singleton] at hlt
    by_cases hq : i < q.length
    · rw [List.getElem_append_left hq, ← h.buf i hq]
      unfold upd
      rw [if_neg]
      intro e
      rw [hi] at e
      have := mod_inj_of_lt (by omega) hl e
      omega
    · have : i = q.length := by omega
      subst this
      rw [← hi, upd_same]; simp

theorem Holds.takeOk {n : Nat} {f : CpFifo α} {x : α} {q : List α} (h : Holds n f (x :: q)) :
    Holds n f.incOut q ∧ f.buf f.out = x := by
  have hp := h.pos; have ho := h.out; have hi := h.inn; have hs := h.state; have hl := h.len; have hu := h.u32
  simp only [List.length_cons] at hl hi hs
  have e1 : LiCan.u32 (f.out + 1) = f.out + 1 := Nat.mod_eq_of_lt (by omega)
  have e2 : (if n ≤ f.out + 1 then 0 else f.out + 1) = (f.out + 1) % n := by
    rw [mod_cases ho (by omega)]; split <;> split <;> omega
  have hb := h.buf 0 (by simp)
  rw [Nat.add_zero, Nat.mod_eq_of_lt ho] at hb
  refine ⟨?_, hb⟩
  unfold incOut
  dsimp only
  rw [h.max, e1, e2]
  refine ⟨hp, hu, rfl, Nat.mod_lt _ hp, by omega, ?_, ?_, ?_⟩
  · dsimp only
    rw [hi, Nat.mod_add_mod]; congr 1; omega
  · dsimp only
    rw [if_neg (by omega : ¬ q.length + 1 = 0)] at hs
    by_cases h0 : q.length = 0
    · rw [if_pos h0, if_pos (by rw [hi, h0])]; rfl
    · rw [if_neg h0, if_neg (by omega : ¬ q.length = n), if_neg, hs]
      · split <;> rfl
      · rw [hi]
        intro e
        have := mod_inj_of_lt (sz := n) (a := f.out + 1) (i := q.length) (j := 0) (by omega) hp (by rw [← Nat.add_assoc] at e; rw [Nat.add_right_comm, e])
        omega
  · intro i hlt
    dsimp only
    have := h.buf (i + 1) (by simp; omega)
    simp only [List.getElem_cons_succ] at this
    rw [← this, Nat.mod_add_mod]
    congr 2
    omega

theorem Holds.step {n : Nat} {f : CpFifo α} {q : List α} (h : Holds n f q) (o : FOp α) :
    Holds n (f.step o).1 (fstep n q o).1 ∧ (f.step o).2 = (fstep n q o).2 := by
  cases o with
  | put x =>
    simp only [CpFifo.step, put, fstep, h.full]
    by_cases hl : q.length < n
    · have : (q.length == n) = false := by simp; omega
      rw [this, if_pos hl]
      exact ⟨h.putOk hl x, rfl⟩
    · have := h.len
      have : (q.length == n) = true := by simp; omega
      rw [this, if_neg hl]
      exact ⟨h, rfl⟩
  | take =>
    simp only [CpFifo.step, take, fstep, h.empty]
    cases q with
    | nil => exact ⟨h, rfl⟩
    | cons x q =>
      obtain ⟨a, b⟩ := h.takeOk
      exact ⟨a, by rw [← b]; rfl⟩
  | free => exact ⟨h, by simp only [CpFifo.step, fstep, h.fre]⟩
  | pending => exact ⟨h, by simp only [CpFifo.step, fstep, h.pend]⟩
  | isEmpty => exact ⟨h, by simp only [CpFifo.step, fstep, h.empty]⟩
  | isFull => exact ⟨h, by simp only [CpFifo.step, fstep, h.full]⟩

theorem Holds.run {n : Nat} (os : List (FOp α)) : ∀ {f : CpFifo α} {q : List α}, Holds n f q →
    Holds n (f.run os).1 (frun n q os).1 ∧ (f.run os).2 = (frun n q os).2 := by
  induction os with
  | nil => exact fun h => ⟨h, rfl⟩
  | cons o os ih =>
    intro f q h
    obtain ⟨a, b⟩ := h.step o
    obtain ⟨c, d⟩ := ih a
    exact ⟨c, by simp only [CpFifo.run, frun, b, d]⟩

/-- C83.  A FIFO initialised for `n` messages behaves, through all functions and any history, as a queue with room for
`n`: in order, without loss or duplication, refusing exactly when full; the counters and flags are exact. -/
theorem C83_fifo_is_a_bounded_queue (n : Nat) (hn : 0 < n) (h32 : n < 2 ^ 32) (f : CpFifo α) (os : List (FOp α)) :
    ((f.init n).run os).2 = (frun n [] os).2 :=
  ((Holds.init hn h32 f).run os).2

/-- C83.  The indices stay inside the array. -/
theorem C83_index_in_range (n : Nat) (hn : 0 < n) (h32 : n < 2 ^ 32) (f : CpFifo α) (os : List (FOp α)) :
    ((f.init n).run os).1.inn < n ∧ ((f.init n).run os).1.out < n := by
  have h := ((Holds.init hn h32 f).run os).1
  exact ⟨by rw [h.inn]; exact Nat.mod_lt _ hn, h.out⟩

/-- around the end of an array of two: the third is refused, order kept -/
example : ((CpFifo.init ⟨7, 7, 7, 7, fun _ => 0⟩ 2).run
      [.put 1, .put 2, .put 3, .isFull, .take, .put 4, .pending, .take, .take, .take]).2 =
    [.accepted true, .accepted true, .accepted false, .bool true, .got (some 1), .accepted true, .num 2, .got (some 2), .got (some 4),
      .got none] := by decide

end CpFifo
namespace CpDrv

/-- one step -/
def step (d : CpDrv) : DOp → Option (CpDrv × Bool)
  | .send b f => (d.send b f.id f.dlc f.data).map fun r => (r.1, r.2 == E.ok)
  | .next => some (d.next, true)

/-- a history; `none`: undefined behaviour -/
def run : CpDrv → List DOp → Option (CpDrv × List Bool)
  | d, [] => some (d, [])
  | d, o :: os => (d.step o).bind fun r => (run r.1 os).map fun t => (t.1, r.2 :: t.2)

/-- What stands on the bus for a message: a standard data frame with its identifier, length and bytes. -/
def frameOf (m : CpMsg) : Option Frame := if m.ctrl = 0 then some ⟨m.id, m.dlc, m.data.take m.dlc⟩ else none

/-- C84.  The message built for a legal frame is that frame. -/
theorem C84_message (f : Frame) (h : Legal f) : ∃ m, CpMsg.build f.id f.dlc f.data = some m ∧ frameOf m = some f := by
  obtain ⟨id, dlc, data⟩ := f
  obtain ⟨h1, h2, h3⟩ := h
  dsimp only at h1 h2 h3
  have e1 : u8 dlc = dlc := Nat.mod_eq_of_lt (by omega)
  refine ⟨⟨id, dlc, 0, data.take dlc ++ (List.replicate 8 0).drop dlc⟩, ?_, ?_⟩
  · dsimp only [CpMsg.build, CpMsg.clear, CpMsg.init]
    have c0 : ((0 : BitVec 8) &&& 3) = 0 := by decide
    unfold CpMsg.setDlc
    dsimp only
    rw [c0, if_neg (by decide), e1, if_pos (by omega)]
    unfold CpMsg.setIdentifier
    dsimp only
    rw [if_neg (by decide), Nat.mod_eq_of_lt (by omega)]
    unfold CpMsg.copy
    rw [if_pos ⟨h2, by omega⟩]
  · unfold frameOf
    rw [if_pos rfl]
    congr 2
    dsimp only
    rw [List.take_append_of_le_length (by simp; omega), List.take_take, Nat.min_self, List.take_of_length_le (by omega)]

/-- C84.  More than eight bytes are written beyond the message. -/
theorem C84_long_frame_is_undefined (id dlc : Nat) (data : List Byte) (h : 8 < dlc) : CpMsg.build id dlc data = none := by
  unfold CpMsg.build CpMsg.copy
  dsimp only
  rw [if_neg (by omega)]

/-- C84.  What `CpMsgSetIdentifier` does for both formats: 29 bits of the identifier for extended messages (bit 0 of
the format), 11 bits for the others, and nothing else changes. -/
theorem C84_identifier (m : CpMsg) (id : Nat) :
    m.setIdentifier id = { m with id := id % (if m.ctrl.getLsbD 0 then 536870912 else 2048) } := by
  have key : (m.ctrl &&& 0x01 ≠ 0) ↔ m.ctrl.getLsbD 0 = true := by
    constructor
    · intro h
      cases hb : m.ctrl.getLsbD 0 with
      | true => rfl
      | false =>
        refine absurd (BitVec.eq_of_getLsbD_eq fun i hi => ?_) h
        rcases i with _ | i
        · rw [BitVec.getLsbD_and, hb]; rfl
        · simp [BitVec.getLsbD_one]
    · intro h e
      have := congrArg (fun x => x.getLsbD 0) e
      simp only [BitVec.getLsbD_and, h, Bool.true_and] at this
      revert this; decide
  unfold CpMsg.setIdentifier
  by_cases h : m.ctrl.getLsbD 0 = true
  · rw [if_pos (key.2 h), if_pos h]
  · rw [if_neg (fun k => h (key.1 k)), if_neg h]

example : (CpMsg.setIdentifier ⟨0, 0, 1, []⟩ 0x3FFFFFFF).id = 0x1FFFFFFF ∧ (CpMsg.setIdentifier ⟨0, 0, 2, []⟩ 0x3FFFFFFF).id = 0x7FF := by
  decide

/-- C84.  An identifier of more than eleven bits is truncated: the frame appears under another identifier. -/
theorem C84_identifier_is_truncated (id dlc : Nat) (data : List Byte) (m : CpMsg) (h : CpMsg.build id dlc data = some m) :
    ∃ f, frameOf m = some f ∧ f.id = id % 2048 := by
  unfold CpMsg.build CpMsg.copy at h
  dsimp only at h
  split at h
  · injection h with h
    subst h
    have c : ∀ x : CpMsg, x.ctrl = 0 → (x.setDlc dlc).ctrl = 0 ∧ ((x.setDlc dlc).setIdentifier id).ctrl = 0 ∧
        ((x.setDlc dlc).setIdentifier id).id = id % 2 ^ 11 := by
      intro x hx
      have a : (x.setDlc dlc).ctrl = 0 := by
        unfold CpMsg.setDlc; split <;> split <;> exact hx
      refine ⟨a, ?_, ?_⟩
      · unfold CpMsg.setIdentifier; split <;> exact a
      · unfold CpMsg.setIdentifier; rw [if_neg (by rw [a]; decide)]
    have h0 : ((CpMsg.clear ⟨0, 0, 0, List.replicate 8 0⟩).init 0).ctrl = 0 := by decide
    obtain ⟨-, c1, c2⟩ := c _ h0
    exact ⟨_, if_pos c1, c2⟩
  · cases h

/-- the driver shows exactly the line -/
structure Shows (d : CpDrv) (l : Line) : Prop where
  bus : d.sent.reverse.map frameOf = l.bus.map some
  wait : ∃ q, CpFifo.Holds 16 d.fifo q ∧ q.map frameOf = l.wait.map some

theorem Shows.init (d : CpDrv) (h : d.sent = []) : Shows d.init ⟨[], []⟩ := by
  refine ⟨by simp [CpDrv.init, h], [], .init (by decide) (by decide) _, rfl⟩

theorem Shows.step {d : CpDrv} {l : Line} (h : Shows d l) (o : DOp) (ho : ∀ b f, o = .send b f → Legal f) :
    ∃ d', d.step o = some (d', (dstep l o).2) ∧ Shows d' (dstep l o).1 := by
  obtain ⟨h1, q, h2, h3⟩ := h
  have hl : q.length = l.wait.length := by rw [← List.length_map (f := frameOf), h3, List.length_map]
  cases o with
  | send b f =>
    obtain ⟨m, e, em⟩ := C84_message f (ho b f rfl)
    cases b with
    | false =>
      refine ⟨{ d with sent := m :: d.sent }, ?_, ?_, q, h2, h3⟩
      · simp only [CpDrv.step, send, e, Option.map_some, write]; rfl
      · simp only [dstep, List.reverse_cons, List.map_append, h1, List.map_cons, List.map_nil, em]
    | true =>
      have hf := h2.full
      by_cases hw : l.wait.length < 16
      · have : d.fifo.isFull = false := by rw [hf]; simp; omega
        refine ⟨{ d with fifo := (d.fifo.put m).1 }, ?_, ?_⟩
        · simp only [CpDrv.step, send, e, Option.map_some, write, CpFifo.put, this, dstep, if_pos hw]; rfl
        · simp only [dstep, if_pos hw]
          refine ⟨h1, q ++ [m], ?_, by simp [h3, em]⟩
          have := h2.step (.put m)
          simp only [CpFifo.step, fstep, if_pos (by omega : q.length < 16)] at this
          exact this.1
      · have : d.fifo.isFull = true := by rw [hf]; have := h2.len; simp; omega
        refine ⟨d, ?_, ?_⟩
        · simp only [CpDrv.step, send, e, Option.map_some, write, CpFifo.put, this, dstep, if_neg hw]; rfl
        · simp only [dstep, if_neg hw]
          exact ⟨h1, q, h2, h3⟩
  | next =>
    have he := h2.empty
    cases q with
    | nil =>
      have hw : l.wait = [] := by rw [← List.length_eq_zero_iff, ← hl]; rfl
      refine ⟨d.next, rfl, ?_⟩
      have e : d.next = d := by
        unfold next CpFifo.take; rw [he]; rfl
      rw [e]
      obtain ⟨bus, wait⟩ := l
      dsimp only at hw h1
      subst hw
      exact ⟨h1, [], h2, rfl⟩
    | cons x q =>
      obtain ⟨a, b⟩ := h2.takeOk
      have e : d.next = ⟨d.fifo.incOut, x :: d.sent⟩ := by
        unfold next CpFifo.take; rw [he]; simp only [List.isEmpty_cons, Bool.false_eq_true, if_false, b]
      refine ⟨d.next, rfl, ?_⟩
      rw [e]
      obtain ⟨bus, wait⟩ := l
      dsimp only at h1 h3
      cases wait with
      | nil => simp at h3
      | cons f fs =>
        simp only [List.map_cons, List.cons.injEq] at h3
        refine ⟨?_, q, a, h3.2⟩
        simp only [dstep, List.reverse_cons, List.map_append, h1, List.map_cons, List.map_nil, h3.1]

theorem Shows.run (os : List DOp) : ∀ {d : CpDrv} {l : Line}, Shows d l → (∀ b f, DOp.send b f ∈ os → Legal f) →
    ∃ d', d.run os = some (d', (drun l os).2) ∧ Shows d' (drun l os).1 := by
  induction os with
  | nil => exact fun {d l} h _ => ⟨d, rfl, h⟩
  | cons o os ih =>
    intro d l h ho
    obtain ⟨d1, e1, h1⟩ := h.step o (fun b f e => ho b f (by rw [e]; exact List.mem_cons_self ..))
    obtain ⟨d2, e2, h2⟩ := ih h1 (fun b f e => ho b f (List.mem_cons_of_mem _ e))
    exact ⟨d2, by simp only [CpDrv.run, e1, Option.bind_some, e2, Option.map_some, drun], h2⟩

/-- C84.  From initialisation on, with legal frames, any history is defined; the driver takes a frame unless the
controller is busy and sixteen wait; the bus shows the frames, byte by byte. -/
theorem C84_transmit_path (d : CpDrv) (hd : d.sent = []) (os : List DOp) (ho : ∀ b f, DOp.send b f ∈ os → Legal f) :
    ∃ d', d.init.run os = some (d', (drun ⟨[], []⟩ os).2) ∧ d'.sent.reverse.map frameOf = (drun ⟨[], []⟩ os).1.bus.map some := by
  obtain ⟨d', e, h⟩ := (Shows.init d hd).run os ho
  exact ⟨d', e, h.bus⟩

/-- a driver before its initialisation -/
def exD0 : CpDrv := ⟨⟨9, 9, 9, 9, fun _ => ⟨0, 0, 0, []⟩⟩, []⟩

/-- C84.  The value returned: after any such history `can_main_hw_send_msg` returns OK, or, exactly if the controller is busy
and sixteen frames wait, the number 0x5078. -/
theorem C84_returned (d : CpDrv) (hd : d.sent = []) (os : List DOp) (ho : ∀ b f, DOp.send b f ∈ os → Legal f) (b : Bool) (f : Frame)
    (hf : Legal f) : ∃ d' d'', d.init.run os = some (d', (drun ⟨[], []⟩ os).2) ∧
      d'.send b f.id f.dlc f.data =
        some (d'', if b = true ∧ (drun ⟨[], []⟩ os).1.wait.length = 16 then 0x5078#16 else 0#16) := by
  obtain ⟨d', e, h⟩ := (Shows.init d hd).run os ho
  obtain ⟨m, hm, -⟩ := C84_message f hf
  obtain ⟨q, h1, h2⟩ := h.wait
  have hl : q.length = (drun ⟨[], []⟩ os).1.wait.length := by rw [← List.length_map (f := frameOf), h2, List.length_map]
  refine ⟨d', (d'.write b m).1, e, ?_⟩
  unfold send
  rw [hm]
  have : (d'.write b m).2 = !(b && (q.length == 16)) := by
    unfold write CpFifo.put
    rw [h1.full]
    cases b with
    | false => rfl
    | true =>
      cases hq : q.length == 16 with
      | true => rfl
      | false => rfl
  simp only [Option.map_some, this, hl]
  cases b with
  | false => rfl
  | true =>
    by_cases hq : (drun ⟨[], []⟩ os).1.wait.length = 16
    · rw [hq]; rfl
    · have : ((drun ⟨[], []⟩ os).1.wait.length == 16) = false := by simpa using hq
      rw [this, if_neg (c := true = true ∧ _) (fun e => hq e.2)]; rfl

/-- seventeen frames while the controller is busy -/
example : ((exD0.init.run (List.replicate 16 (.send true ⟨0x410, 2, [1, 2]⟩))).bind fun r =>
    (r.1.send true 0x411 1 [3]).map (·.2)) = some 0x5078#16 := by decide

theorem dstep_taken (l : Line) (o : DOp) (os : List DOp) (bs : List Bool) (hb : BusyWhileWaiting l (o :: os)) :
    l.bus ++ l.wait ++ taken (o :: os) ((dstep l o).2 :: bs) = (dstep l o).1.bus ++ (dstep l o).1.wait ++ taken os bs := by
  cases o with
  | send b f =>
    cases b with
    | false =>
      have : l.wait = [] := by
        cases hw : l.wait with
        | nil => rfl
        | cons x xs => exact absurd (hb.1 (by rw [hw]; simp)) (by simp)
      simp only [dstep, taken, this, List.append_nil, List.append_assoc, List.cons_append, List.nil_append]
    | true =>
      by_cases h : l.wait.length < 16
      · simp only [dstep, if_pos h, taken, List.append_assoc, List.cons_append, List.nil_append]
      · simp only [dstep, if_neg h, taken]
  | next =>
    obtain ⟨bus, wait⟩ := l
    cases wait with
    | nil => rfl
    | cons x xs => simp only [dstep, taken, List.append_assoc, List.cons_append, List.nil_append]

theorem drun_taken (os : List DOp) : ∀ l : Line, BusyWhileWaiting l os →
    (drun l os).1.bus ++ (drun l os).1.wait = l.bus ++ l.wait ++ taken os (drun l os).2 := by
  induction os with
  | nil => intro l _; simp [drun, taken]
  | cons o os ih =>
    intro l hb
    have hb' : BusyWhileWaiting (dstep l o).1 os := by
      cases o with
      | send b f => exact hb.2
      | next => exact hb
    have := dstep_taken l o os (drun (dstep l o).1 os).2 hb
    show (drun (dstep l o).1 os).1.bus ++ (drun (dstep l o).1 os).1.wait = l.bus ++ l.wait ++ taken (o :: os) ((dstep l o).2 :: (drun (dstep l o).1 os).2)
    rw [this, ih _ hb']

/-- C84.  If the controller counts as busy while frames wait, the frames taken appear on the bus in the order in
which they were handed over, none is lost, none doubled: those not yet on the bus wait. -/
theorem C84_order (d : CpDrv) (hd : d.sent = []) (os : List DOp) (ho : ∀ b f, DOp.send b f ∈ os → Legal f)
    (hb : BusyWhileWaiting ⟨[], []⟩ os) :
    ∃ d' bs, d.init.run os = some (d', bs) ∧ ∃ bus wait : List Frame, d'.sent.reverse.map frameOf = bus.map some ∧
      wait.length ≤ 16 ∧ bus ++ wait = taken os bs := by
  obtain ⟨d', e, h⟩ := (Shows.init d hd).run os ho
  refine ⟨d', _, e, (drun ⟨[], []⟩ os).1.bus, (drun ⟨[], []⟩ os).1.wait, h.bus, ?_, by simpa using drun_taken os ⟨[], []⟩ hb⟩
  obtain ⟨q, h1, h2⟩ := h.wait
  rw [← List.length_map (f := some), ← h2, List.length_map]
  exact h1.len

/-- three frames, the second and the third while the controller is busy -/
def exD : CpDrv := ⟨⟨9, 9, 9, 9, fun _ => ⟨0, 0, 0, []⟩⟩, []⟩
def exHist : List DOp := [.send false ⟨0x410, 2, [1, 2]⟩, .send true ⟨0x411, 1, [3]⟩, .send true ⟨0x003, 8, [1, 2, 3, 4, 5, 6, 7, 8]⟩, .next]
example : ∀ o ∈ exHist, ∀ b f, o = .send b f → Legal f := by
  intro o ho b f e; subst e
  simp only [exHist, List.mem_cons, DOp.send.injEq, reduceCtorEq, List.not_mem_nil, or_false] at ho
  rcases ho with ⟨-, h⟩ | ⟨-, h⟩ | ⟨-, h⟩ <;> subst h <;> decide
example : BusyWhileWaiting ⟨[], []⟩ exHist := by simp [BusyWhileWaiting, exHist, dstep]
example : ((exD.init.run exHist).map fun r => (r.1.sent.reverse.map frameOf, r.1.fifo.pending, r.2)) =
    some ([some ⟨0x410, 2, [1, 2]⟩, some ⟨0x411, 1, [3]⟩], 1, [true, true, true, true]) := by decide

/-- Without that, a later frame overtakes a waiting one. -/
theorem C84_counterexample_overtaking : ∃ (os : List DOp) (d' : CpDrv), (∀ b f, DOp.send b f ∈ os → Legal f) ∧
    exD.init.run os = some (d', [true, true, true]) ∧
    d'.sent.reverse.map frameOf = [some ⟨0x20, 0, []⟩, some ⟨0x10, 0, []⟩] := by
  have h : (exD.init.run [.send true ⟨0x10, 0, []⟩, .send false ⟨0x20, 0, []⟩, .next]).any (fun r =>
      (r.2 == [true, true, true]) && (r.1.sent.reverse.map frameOf == [some ⟨0x20, 0, []⟩, some ⟨0x10, 0, []⟩])) = true := by decide
  obtain ⟨⟨d', bs⟩, h1, h2⟩ := (Option.any_eq_true ..).1 h
  simp only [Bool.and_eq_true, beq_iff_eq] at h2
  obtain ⟨h2, h3⟩ := h2
  subst h2
  refine ⟨_, d', ?_, h1, h3⟩
  intro b f hf
  simp only [List.mem_cons, DOp.send.injEq, reduceCtorEq, List.not_mem_nil, or_false] at hf
  rcases hf with ⟨-, e⟩ | ⟨-, e⟩ <;> subst e <;> decide

end CpDrv
end LiCan
