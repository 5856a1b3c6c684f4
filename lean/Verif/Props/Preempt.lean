import Verif.Lemmas.Preempt
/-!
# C96, C97: guarded code under interrupts

`C96`: the buffer of the tunnel is filled by the port and emptied by `li_can_slv_process`, each perhaps
interrupting the other.  `C97`: the error handler is called by `li_can_slv_process` and by the driver.
-/
namespace LiCan
namespace Lock
variable {L D : Type}

/-- the common part of both properties -/
theorem serial_of_inv {I : Sh → List (Nat × Nat) → Prop} {g : Guard} {N : Nat} (G : GuardOk g N I)
    {next : L → D → Option (L × D)} {d0 : D} {s : St L D} (h : Inv I next d0 s) :
    (∀ (i j : Nat) (a b : Call L), s.calls[i]? = some a → s.calls[j]? = some b → a.pc = 4 → b.pc = 4 → i = j) := by
  have key : ∀ (cs : List (Call L)), Uniq (view cs) → ∀ (i j : Nat) (a b : Call L), cs[i]? = some a → cs[j]? = some b →
      a.pc = 4 → b.pc = 4 → i = j := by
    intro cs
    induction cs with
    | nil => intro _ i j a b h; simp at h
    | cons c cs ih =>
      intro hu i j a b ha hb h1 h2
      cases i with
      | zero =>
        cases j with
        | zero => rfl
        | succ j =>
          simp only [List.getElem?_cons_zero, Option.some.injEq] at ha
          subst ha
          exact absurd h2 (uniq_rest hu h1 b (List.mem_of_getElem? (by simpa using hb)))
      | succ i =>
        cases j with
        | zero =>
          simp only [List.getElem?_cons_zero, Option.some.injEq] at hb
          subst hb
          exact absurd h1 (uniq_rest hu h2 a (List.mem_of_getElem? (by simpa using ha)))
        | succ j =>
          rw [ih hu.2 i j a b (by simpa using ha) (by simpa using hb) h1 h2]
  exact key _ (G.uniq _ _ h.guard)

/-! ## C96 -/

/-- **C96** (pure preemption, at most 65535 nested activations).  Whatever the guarded code does with the
shared data and whenever activations of `can_async_tunnel_putc` and `can_async_tunnel_process_tx_data`
interrupt each other: at most one activation is in the guarded code; as long as none is there, the shared
data is what the served activations produce one after the other, each from its beginning to its end; and
while one is there, it has been working undisturbed.
Missing: contexts sharing the processor in time slices, where this is false. -/
theorem C96_tunnel_calls_are_serial_partial (next : L → D → Option (L × D)) (N : Nat) (hN : N ≤ 65535) (d0 : D)
    (as : List (Act L)) (ha : Preemptive as) :
    let s := (St.init d0).run tunnel next N as
    (∀ (i j : Nat) (a b : Call L), s.calls[i]? = some a → s.calls[j]? = some b → a.pc = 4 → b.pc = 4 → i = j) ∧
    ((∀ c ∈ s.calls, c.pc ≠ 4) → Spec.Serial next d0 s.served s.data) ∧
    (∀ c ∈ s.calls, c.pc = 4 → ∃ pre d1, s.served = pre ++ [c.arg] ∧ Spec.Serial next d0 pre d1 ∧
      Spec.Runs next c.arg d1 c.loc s.data) := by
  have h := Inv.run (tunnel_ok hN) as ha (Inv.init (tunnel_ok hN) next d0)
  exact ⟨serial_of_inv (tunnel_ok hN) h, h.idle, h.busy⟩

/-- **C96**: the lock is free again after any preemptive history: an activation that nobody interrupts and
that interrupts nobody is served. -/
theorem C96_lock_is_released_partial (next : L → D → Option (L × D)) (N : Nat) (hN : N ≤ 65535) (hN0 : 0 < N) (d0 : D)
    (as : List (Act L)) (ha : Preemptive as) (a : L) :
    let s := (St.init d0).run tunnel next N as
    s.calls = [] → (s.run tunnel next N [.call a, .cpu 0, .cpu 0, .cpu 0]).served = s.served ++ [a] := by
  have h := Inv.run (tunnel_ok hN) as ha (Inv.init (tunnel_ok hN) next d0)
  generalize (St.init d0).run tunnel next N as = s at *
  dsimp only
  intro he
  obtain ⟨h1, h2, _, _⟩ := h.guard
  obtain ⟨⟨lock, irq⟩, data, calls, served, refused⟩ := s
  simp only at he h1 h2
  subst he
  simp only [view_nil, raised] at h2
  subst h1 h2
  simp [St.run, St.step, Call.step, hN0, tunnel]

/-- **C96**: an activation is refused (`ERR_MSG_CAN_ASYNC_TNL_BUSY`) only if it has interrupted another one
between `can_async_tnl_lock++` and `can_async_tnl_lock--`. -/
theorem C96_refused_only_inside_partial (next : L → D → Option (L × D)) (N : Nat) (hN : N ≤ 65535) (d0 : D)
    (as : List (Act L)) (ha : Preemptive as) :
    let s := (St.init d0).run tunnel next N as
    (s.step tunnel next N (.cpu 0)).refused ≠ s.refused →
    ∃ c ∈ s.calls.tail, c.pc = 2 ∨ c.pc = 4 ∨ c.pc = 5 ∨ c.pc = 6 := by
  have h := Inv.run (tunnel_ok hN) as ha (Inv.init (tunnel_ok hN) next d0)
  generalize (St.init d0).run tunnel next N as = s at *
  dsimp only
  intro hr
  obtain ⟨h1, h2, h3, h4⟩ := h.guard
  obtain ⟨⟨lock, irq⟩, data, calls, served, refused⟩ := s
  simp only at h1 h2 h3 h4
  cases calls with
  | nil => exact absurd rfl hr
  | cons c cs =>
    simp only [view_cons, raised] at h2 h4
    simp only [List.tail_cons]
    have hup : ∀ cs : List (Call L), 0 < raised (view cs) → ∃ c ∈ cs, c.pc = 2 ∨ c.pc = 4 ∨ c.pc = 5 ∨ c.pc = 6 := by
      intro cs
      induction cs with
      | nil => intro h; exact absurd h (by simp [raised])
      | cons x cs ih =>
        intro h
        by_cases hx : x.pc = 2 ∨ x.pc = 4 ∨ x.pc = 5 ∨ x.pc = 6
        · exact ⟨x, List.mem_cons_self, hx⟩
        · have : raised (view cs) = raised (view (x :: cs)) := by simp [raised, up, hx]
          obtain ⟨y, hy, h'⟩ := ih (by omega)
          exact ⟨y, List.mem_cons_of_mem _ hy, h'⟩
    apply hup
    simp only [St.step, List.getElem?_cons_zero] at hr
    by_cases h9 : c.pc = 9
    · rw [if_pos h9] at hr; exact absurd rfl hr
    · rw [if_neg h9] at hr
      unfold Call.step at hr
      by_cases hc4 : c.pc = 4
      · rw [if_pos hc4] at hr
        split at hr <;> exact absurd rfl hr
      · rw [if_neg hc4] at hr
        simp only at hr
        split at hr
        · rename_i hq
          rcases h4.1 with e | e | e | e | e | e | e <;> simp only at e <;> rw [e] at hq <;> simp [tunnel] at hq
          split at hq
          · omega
          · simp [up, e] at h2; omega
        · exact absurd rfl hr

end Lock

/-! ## The bytes of the tunnel -/
namespace TnlBuf
open Lock

/-- the bytes in the objects handed over and in the buffer, in the order of the stream -/
def stream (d : Buf) : List Byte := d.out.flatten ++ (List.range d.used).map d.data

/-- the bytes an activation adds -/
def said (l : Loc) : List Byte := if l.pc = 0 then [l.byte] else []

/-- an activation of one of the two functions -/
def Start (l : Loc) : Prop := (∃ b, l = .putc b) ∨ ∃ go, l = .flush go

/-- the objects handed over have one to eight bytes -/
def Legal (d : Buf) : Prop := ∀ o ∈ d.out, 1 ≤ o.length ∧ o.length ≤ 8

/-- along the guarded code, `T` being the stream at its end -/
def Along (T : List Byte) (l : Loc) (d : Buf) : Prop :=
  Legal d ∧
  ((l.pc = 0 ∧ stream d ++ [l.byte] = T ∧ d.used < 8) ∨
   (l.pc = 1 ∧ d.data d.used = l.byte ∧ stream d ++ [l.byte] = T ∧ d.used < 8) ∨
   (l.pc = 2 ∧ l.reg = d.used ∧ d.data d.used = l.byte ∧ stream d ++ [l.byte] = T ∧ d.used < 8) ∨
   (l.pc = 3 ∧ stream d = T ∧ d.used ≤ 8) ∨
   (l.pc = 4 ∧ stream d = T ∧ d.used ≤ 8 ∧ 0 < d.used) ∨
   (l.pc = 5 ∧ d.out.flatten = T) ∨
   (l.pc = 10 ∧ stream d = T ∧ d.used < 8) ∨
   (l.pc = 6 ∧ stream d = T ∧ d.used < 8))

theorem stream_upd (d : Buf) (b : Byte) : stream { d with data := upd d.data d.used b } = stream d := by
  unfold stream
  simp only
  congr 1
  refine List.map_congr_left fun k hk => ?_
  exact upd_other _ _ (by have := List.mem_range.mp hk; omega)

theorem Along.forward {T : List Byte} {l l' : Loc} {d d' : Buf} (h : Along T l d) (hn : next l d = some (l', d')) :
    Along T l' d' := by
  obtain ⟨hL, h⟩ := h
  rcases h with ⟨e, h1, h2⟩ | ⟨e, h1, h2, h3⟩ | ⟨e, h1, h2, h3, h4⟩ | ⟨e, h1, h2⟩ | ⟨e, h1, h2, h3⟩ | ⟨e, h1⟩ |
    ⟨e, h1, h2⟩ | ⟨e, h1, h2⟩ <;> simp [TnlBuf.next, e] at hn
  · obtain ⟨rfl, rfl⟩ := hn
    exact ⟨hL, .inr (.inl ⟨rfl, upd_same .., by rw [stream_upd]; exact h1, h2⟩)⟩
  · obtain ⟨rfl, rfl⟩ := hn
    exact ⟨hL, .inr (.inr (.inl ⟨rfl, rfl, h1, h2, h3⟩))⟩
  · obtain ⟨rfl, rfl⟩ := hn
    refine ⟨hL, .inr (.inr (.inr (.inl ⟨rfl, ?_, ?_⟩)))⟩
    · rw [← h3]
      unfold stream
      simp only
      rw [Nat.mod_eq_of_lt (by omega), h1, List.range_succ, List.map_append, List.map_singleton, h2, List.append_assoc]
    · simp only; omega
  · obtain ⟨rfl, rfl⟩ := hn
    by_cases h8 : d.used = 8
    · exact ⟨hL, .inr (.inr (.inr (.inr (.inl ⟨by simp [h8], h1, h2, by omega⟩))))⟩
    · exact ⟨hL, .inr (.inr (.inr (.inr (.inr (.inr (.inr ⟨by simp [h8], h1, by omega⟩))))))⟩
  · obtain ⟨rfl, rfl⟩ := hn
    refine ⟨?_, .inr (.inr (.inr (.inr (.inr (.inl ⟨rfl, ?_⟩)))))⟩
    · intro o ho
      rcases List.mem_append.mp ho with h | h
      · exact hL o h
      · rw [List.mem_singleton] at h
        subst h
        simp only [List.length_map, List.length_range]
        exact ⟨h3, h2⟩
    · simp only [List.flatten_append, List.flatten_cons, List.flatten_nil, List.append_nil]
      exact h1
  · obtain ⟨rfl, rfl⟩ := hn
    refine ⟨hL, .inr (.inr (.inr (.inr (.inr (.inr (.inr ⟨rfl, ?_, by simp⟩))))))⟩
    simp [stream, h1]
  · obtain ⟨rfl, rfl⟩ := hn
    by_cases h8 : 0 < d.used ∧ l.go = true
    · exact ⟨hL, .inr (.inr (.inr (.inr (.inl ⟨by simp [h8], h1, by omega, h8.1⟩))))⟩
    · exact ⟨hL, .inr (.inr (.inr (.inr (.inr (.inr (.inr ⟨by simp [h8], h1, h2⟩))))))⟩

theorem Along.runs {T : List Byte} {l l' : Loc} {d d' : Buf} (h : Along T l d) (hr : Spec.Runs next l d l' d') :
    Along T l' d' := by
  induction hr with
  | refl => exact h
  | step _ hn ih => exact ih.forward hn

theorem Along.done {T : List Byte} {l : Loc} {d : Buf} (h : Along T l d) (hn : next l d = none) :
    stream d = T ∧ d.used < 8 ∧ Legal d := by
  obtain ⟨hL, h⟩ := h
  rcases h with ⟨e, h1, h2⟩ | ⟨e, h1, h2, h3⟩ | ⟨e, h1, h2, h3, h4⟩ | ⟨e, h1, h2⟩ | ⟨e, h1, h2, h3⟩ | ⟨e, h1⟩ |
    ⟨e, h1, h2⟩ | ⟨e, h1, h2⟩ <;> simp [TnlBuf.next, e] at hn
  exact ⟨h1, h2, hL⟩

theorem serial_stream {d0 d : Buf} {as : List Loc} (h : Spec.Serial next d0 as d) (h0 : d0.used < 8) (hL : Legal d0)
    (hs : ∀ a ∈ as, Start a) : stream d = stream d0 ++ as.flatMap said ∧ d.used < 8 ∧ Legal d := by
  induction h with
  | nil => exact ⟨by simp, h0, hL⟩
  | @snoc as a d1 l d2 h1 h2 h3 ih =>
    obtain ⟨i1, i2, i3⟩ := ih fun x hx => hs x (List.mem_append_left _ hx)
    have hst : Along (stream d1 ++ said a) a d1 := by
      refine ⟨i3, ?_⟩
      rcases hs a (List.mem_append_right _ (List.mem_singleton.mpr rfl)) with ⟨b, rfl⟩ | ⟨go, rfl⟩
      · exact .inl ⟨rfl, rfl, i2⟩
      · exact .inr (.inr (.inr (.inr (.inr (.inr (.inl ⟨rfl, by simp [said, Loc.flush], i2⟩))))))
    obtain ⟨r1, r2, r3⟩ := (hst.runs h2).done h3
    refine ⟨?_, r2, r3⟩
    rw [r1, i1, List.flatMap_append, List.append_assoc]
    simp

/-- what is served was called -/
theorem args {g : Guard} {next : L → D → Option (L × D)} {N : Nat} {P : L → Prop} (as : List (Act L))
    (hP : ∀ a ∈ as, ∀ l, a = .call l → P l) :
    ∀ s : St L D, (∀ c ∈ s.calls, P c.arg) ∧ (∀ l ∈ s.served, P l) →
      (∀ c ∈ (s.run g next N as).calls, P c.arg) ∧ (∀ l ∈ (s.run g next N as).served, P l) := by
  induction as with
  | nil => intro s h; exact h
  | cons a as ih =>
    intro s h
    refine ih (fun b hb => hP b (List.mem_cons_of_mem _ hb)) _ ?_
    have ha := hP a List.mem_cons_self
    cases a with
    | call l =>
      unfold St.step
      simp only
      split
      · refine ⟨?_, h.2⟩
        intro c hc
        rcases List.mem_cons.mp hc with rfl | hm
        · exact ha l rfl
        · exact h.1 c hm
      · exact h
    | cpu i =>
      unfold St.step
      simp only
      split
      · exact h
      · rename_i c hc
        have hcm := h.1 c (List.mem_of_getElem? hc)
        split
        · exact ⟨fun x hx => h.1 x (List.mem_of_mem_eraseIdx hx), h.2⟩
        · have hset : ∀ c', c'.arg = c.arg → ∀ x ∈ s.calls.set i c', P x.arg := by
            intro c' he x hx
            rcases List.mem_or_eq_of_mem_set hx with hm | rfl
            · exact h.1 x hm
            · rw [he]; exact hcm
          unfold Call.step
          split
          · split
            · exact ⟨hset _ rfl, h.2⟩
            · exact ⟨hset _ rfl, h.2⟩
          · refine ⟨hset _ rfl, ?_⟩
            intro l hl
            simp only at hl
            split at hl
            · rcases List.mem_append.mp hl with h' | h'
              · exact h.2 l h'
              · rw [List.mem_singleton] at h'; subst h'; exact hcm
            · exact h.2 l hl

/-- **C96** for the code of the tunnel: under preemption, whenever no activation is in the guarded code, the
objects handed to the transmit queue and the bytes still in the buffer are exactly the bytes of the
`can_async_tunnel_putc` calls that were served, each once and in the order in which they were served; every
object has one to eight bytes. -/
theorem C96_tunnel_bytes_partial (N : Nat) (hN : N ≤ 65535) (data : Nat → Byte) (as : List (Act Loc)) (ha : Preemptive as)
    (hs : ∀ a ∈ as, ∀ l, a = .call l → Start l) :
    let s := (St.init (⟨0, data, []⟩ : Buf)).run tunnel next N as
    (∀ c ∈ s.calls, c.pc ≠ 4) →
    s.data.out.flatten ++ (List.range s.data.used).map s.data.data = s.served.flatMap said ∧
    ∀ o ∈ s.data.out, 1 ≤ o.length ∧ o.length ≤ 8 := by
  intro s hn
  have h := (C96_tunnel_calls_are_serial_partial next N hN (⟨0, data, []⟩ : Buf) as ha).2.1 hn
  have hm := (args (g := tunnel) (next := next) (N := N) (P := Start) as hs (St.init (⟨0, data, []⟩ : Buf))
    ⟨fun _ h => (List.not_mem_nil h).elim, fun _ h => (List.not_mem_nil h).elim⟩).2
  obtain ⟨r1, _, r3⟩ := serial_stream h (by simp) (fun _ h => (List.not_mem_nil h).elim) hm
  exact ⟨r1, r3⟩

/-- `n` steps of context `i` -/
def slice (i n : Nat) : List (Act Loc) := List.replicate n (.cpu i)

/-- a schedule of the example: nine bytes, the third interrupted by the flush while it holds the lock, the
flush interrupted by a byte while it holds the lock -/
def exSched : List (Act Loc) :=
  [.call (.putc 1)] ++ slice 0 20 ++ [.call (.putc 2)] ++ slice 0 20 ++
  [.call (.putc 3)] ++ slice 0 5 ++ [.call (.flush true)] ++ slice 0 20 ++ slice 0 20 ++
  [.call (.flush true)] ++ slice 0 1 ++ [.call (.putc 4)] ++ slice 0 14 ++ slice 0 4 ++ [.call (.putc 5)] ++ slice 0 40

/-- A non-trivial preemptive schedule: the flush that interrupts byte 3 is refused, byte 4 interrupts the flush
before it holds the lock and is served, byte 5 interrupts it afterwards and is refused; bytes 1 to 4 leave in one
object. -/
example : let s := (St.init (⟨0, fun _ => 0, []⟩ : Buf)).run tunnel next 3 exSched
    s.calls.length = 0 ∧ s.served.flatMap said = [1, 2, 3, 4] ∧ s.data.out = [[1, 2, 3, 4]] ∧ s.data.used = 0 ∧
    s.refused.map (·.byte) = [0, 5] := by decide +kernel
example : Preemptive exSched ∧ ∀ a ∈ exSched, ∀ l, a = .call l → Start l := by
  refine ⟨?_, ?_⟩
  · intro a h i e
    subst e
    simp only [exSched, slice, List.append_assoc, List.mem_append, List.mem_singleton, List.mem_replicate, Act.cpu.injEq,
      reduceCtorEq, false_or] at h
    omega
  · intro a h l e
    subst e
    simp only [exSched, slice, List.append_assoc, List.mem_append, List.mem_singleton, List.mem_replicate, Act.call.injEq,
      reduceCtorEq, and_false, or_false, false_or] at h
    rcases h with rfl | rfl | rfl | rfl | rfl | rfl | rfl
    · exact .inl ⟨_, rfl⟩
    · exact .inl ⟨_, rfl⟩
    · exact .inl ⟨_, rfl⟩
    · exact .inr ⟨_, rfl⟩
    · exact .inr ⟨_, rfl⟩
    · exact .inl ⟨_, rfl⟩
    · exact .inl ⟨_, rfl⟩

/-- two bytes put by two contexts that share the processor in time slices -/
def exSlices : List (Act Loc) :=
  [.call (.putc 1), .call (.putc 2), .cpu 0, .cpu 1, .cpu 0, .cpu 1, .cpu 0, .cpu 1] ++
  -- both are in the guarded code now
  [.cpu 0, .cpu 1, .cpu 0, .cpu 1, .cpu 0, .cpu 1] ++ slice 0 5 ++ slice 0 5

/-- **C96 is false for contexts that share the processor in time slices** (tasks of the same priority of an
operating system): both `can_async_tnl_lock++` read 0, so both activations are in the guarded code, one byte
overwrites the other although both calls return OK; afterwards the lock is 65535, and a call that nobody
disturbs is refused as BUSY, again and again: the tunnel does not transmit any more. -/
theorem C96_counterexample_time_slices :
    let s := (St.init (⟨0, fun _ => 0, []⟩ : Buf)).run tunnel next 3 exSlices
    s.calls.length = 0 ∧ s.served.flatMap said = [2, 1] ∧
    s.data.out.flatten ++ (List.range s.data.used).map s.data.data = [1] ∧ s.sh.lock = 65535 ∧
    (s.run tunnel next 3 ([.call (.putc 3)] ++ slice 0 9)).served.length = s.served.length ∧
    (s.run tunnel next 3 ([.call (.putc 3)] ++ slice 0 9)).sh = s.sh ∧
    (s.run tunnel next 3 ([.call (.putc 3)] ++ slice 0 9)).calls.length = 0 := by decide +kernel

end TnlBuf

/-! ## C97 -/
namespace Lock
variable {L D : Type}

/-- **C97** (option `LI_CAN_SLV_RECONNECT_ENA_ERR_HANDLER_LOCK`, pure preemption).  Whatever the error handler
does and whenever the driver calls it while `li_can_slv_process` runs it or the other way round: it is never
entered while an activation is inside; the shared data is what the served activations produce one after the
other; and one that is inside has been working undisturbed.
Missing: contexts sharing the processor in time slices, and the handler compiled without the option, where this
is false. -/
theorem C97_error_handler_is_serial_partial (next : L → D → Option (L × D)) (N : Nat) (d0 : D) (as : List (Act L))
    (ha : Preemptive as) :
    let s := (St.init d0).run errorHandler next N as
    (∀ (i j : Nat) (a b : Call L), s.calls[i]? = some a → s.calls[j]? = some b → a.pc = 4 → b.pc = 4 → i = j) ∧
    ((∀ c ∈ s.calls, c.pc ≠ 4) → Spec.Serial next d0 s.served s.data) ∧
    (∀ c ∈ s.calls, c.pc = 4 → ∃ pre d1, s.served = pre ++ [c.arg] ∧ Spec.Serial next d0 pre d1 ∧
      Spec.Runs next c.arg d1 c.loc s.data) := by
  have h := Inv.run (error_ok N) as ha (Inv.init (error_ok N) next d0)
  exact ⟨serial_of_inv (error_ok N) h, h.idle, h.busy⟩

/-- **C97**: after any preemptive history the handler can be entered again and interrupts are enabled. -/
theorem C97_lock_is_released_partial (next : L → D → Option (L × D)) (N : Nat) (hN0 : 0 < N) (d0 : D)
    (as : List (Act L)) (ha : Preemptive as) (a : L) :
    let s := (St.init d0).run errorHandler next N as
    s.calls = [] → s.sh.irq = true ∧
      (s.run errorHandler next N [.call a, .cpu 0, .cpu 0, .cpu 0, .cpu 0]).served = s.served ++ [a] := by
  have h := Inv.run (error_ok N) as ha (Inv.init (error_ok N) next d0)
  generalize (St.init d0).run errorHandler next N as = s at *
  dsimp only
  intro he
  obtain ⟨h1, h2, h3, h4⟩ := h.guard
  obtain ⟨⟨lock, irq⟩, data, calls, served, refused⟩ := s
  simp only at he h1 h2 h3
  subst he
  have e1 : irq = true := h1.mpr trivial
  have e2 : lock = 0 := h3 (by rintro ⟨x, hx, _⟩; exact (List.not_mem_nil hx).elim)
  subst e1 e2
  refine ⟨rfl, ?_⟩
  simp [St.run, St.step, Call.step, hN0, errorHandler]

/-- the body of the example: read a counter, then write it back incremented -/
def exNext (l : Nat × Nat) (d : Nat) : Option ((Nat × Nat) × Nat) :=
  if l.1 = 0 then some ((1, d), d) else if l.1 = 1 then some ((2, l.2), l.2 + 1) else none

/-- `n` steps of context `i` -/
def steps (i n : Nat) : List (Act (Nat × Nat)) := List.replicate n (.cpu i)

/-- A preemptive schedule: an activation is interrupted after its test of the lock by one that is served,
and inside by one that is refused.  Two activations are served and the counter is 2. -/
example :
    let s := (St.init 0).run errorHandler exNext 3
      ([.call (0, 0)] ++ steps 0 1 ++ [.call (0, 0)] ++ steps 0 12 ++ steps 0 4 ++ [.call (0, 0)] ++ steps 0 2 ++ steps 0 8)
    s.calls.length = 0 ∧ s.served.length = 2 ∧ s.refused.length = 1 ∧ s.data = 2 := by decide +kernel

/-- **C97 is false without the option**: an interrupt enters the handler while it is running; two activations
are inside, and one of the two increments is lost. -/
theorem C97_counterexample_no_lock :
    let s1 := (St.init 0).run unguarded exNext 3 ([.call (0, 0)] ++ steps 0 2 ++ [.call (0, 0)] ++ steps 0 1)
    let s2 := s1.run unguarded exNext 3 (steps 0 5 ++ steps 0 5)
    s1.calls.map (·.pc) = [4, 4] ∧ s2.calls.length = 0 ∧ s2.served.length = 2 ∧ s2.data = 1 := by decide +kernel

/-- **C97 is false for contexts sharing the processor in time slices**: the test of the lock and setting it
are two steps. -/
theorem C97_counterexample_time_slices :
    let s := (St.init 0).run errorHandler exNext 3
      ([.call (0, 0)] ++ steps 0 1 ++ [.call (0, 0)] ++ steps 0 4 ++ steps 1 3)
    s.calls.map (·.pc) = [4, 4] := by decide +kernel

end Lock
end LiCan
