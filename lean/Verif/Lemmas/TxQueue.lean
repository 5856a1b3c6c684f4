import Verif.Spec.Async
import Verif.Lemmas.StackRest
/-! # Transmit queue and tunnel buffer -/
namespace LiCan
namespace Stack
open Spec

/-- the indices fit the number of waiting frames -/
structure Ring (q : DataQ) : Prop where
  read : q.read < 4
  state : q.state ≤ 4
  write : q.write = (q.read + q.state) % 4

theorem pendingOf_length (q : DataQ) : (pendingOf q).length = q.state := by simp [pendingOf]

theorem pendingOf_push {q : DataQ} (h : Ring q) (hs : q.state < 4) (f : Frame) (w : Nat) :
    pendingOf { q with buf := upd q.buf q.write f, write := w, state := q.state + 1 } = pendingOf q ++ [f] := by
  unfold pendingOf
  rw [List.range_succ, List.map_append]
  have hw := h.write
  congr 1
  · apply List.map_congr_left
    intro i hi
    have hi := List.mem_range.1 hi
    have hr := h.read
    show upd q.buf q.write f ((q.read + i) % 4) = _
    unfold upd
    rw [if_neg]
    rw [hw]; omega
  · show [upd q.buf q.write f ((q.read + q.state) % 4)] = [f]
    unfold upd
    rw [if_pos hw.symm]

theorem pendingOf_pop {q : DataQ} (h : Ring q) (hs : 0 < q.state) :
    pendingOf q = q.buf q.read ::
      pendingOf { q with read := if q.read < 3 then q.read + 1 else 0, state := q.state - 1 } := by
  obtain ⟨k, hk⟩ : ∃ k, q.state = k + 1 := ⟨q.state - 1, by omega⟩
  have hr := h.read
  unfold pendingOf
  simp only [hk, Nat.add_sub_cancel]
  rw [List.range_succ_eq_map, List.map_cons, List.map_map]
  congr 1
  · congr 1; omega
  · apply List.map_congr_left
    intro i _
    show q.buf _ = q.buf _
    congr 1
    split <;> omega

theorem Ring.push {q : DataQ} (h : Ring q) (hs : q.state < 4) (f : Nat → Frame) :
    Ring { q with buf := f, write := if q.write < 3 then q.write + 1 else 0, state := q.state + 1 } := by
  have h1 := h.read; have h2 := h.write
  refine ⟨h1, ?_, ?_⟩
  · show q.state + 1 ≤ 4; omega
  · show (if q.write < 3 then q.write + 1 else 0) = (q.read + (q.state + 1)) % 4
    split <;> omega

theorem Ring.pop {q : DataQ} (h : Ring q) (hs : 0 < q.state) :
    Ring { q with read := if q.read < 3 then q.read + 1 else 0, state := q.state - 1 } := by
  have h1 := h.read; have h2 := h.write; have h3 := h.state
  refine ⟨?_, ?_, ?_⟩
  · show (if q.read < 3 then q.read + 1 else 0) < 4; split <;> omega
  · show q.state - 1 ≤ 4; omega
  · show q.write = ((if q.read < 3 then q.read + 1 else 0) + (q.state - 1)) % 4
    split <;> omega

theorem newLog_self (s : Stack) : newLog s s = [] := by simp [newLog]

theorem newLog_of {a b : Stack} {l : List Ev} (h : logOf b = l ++ logOf a) : newLog a b = l := by
  unfold newLog
  rw [h, List.length_append, Nat.add_sub_cancel, List.take_left]

/-- what `can_main_handler_tx` does with a waiting frame -/
theorem handlerTx_spec (env : AEnv) (s : Stack) (h : Ring s.q) (hs : 0 < s.q.state) :
    Ring (handlerTx env s).q ∧ (handlerTx env s).tnl = s.tnl ∧ (handlerTx env s).rc = s.rc ∧
    ((s.rc.state = .on ∧ handlerTx env s = s) ∨
     (s.rc.state ≠ .on ∧
      logOf (handlerTx env s) = .frame (s.q.buf s.q.read) (env.sendOk s.slv.node.sendN) :: logOf s ∧
      (env.sendOk s.slv.node.sendN = false → (handlerTx env s).q = s.q) ∧
      (env.sendOk s.slv.node.sendN = true →
        pendingOf s.q = s.q.buf s.q.read :: pendingOf (handlerTx env s).q))) := by
  unfold handlerTx
  by_cases hr : s.rc.state = .on
  · rw [if_neg (by simpa using hr)]
    exact ⟨h, rfl, rfl, .inl ⟨hr, rfl⟩⟩
  · rw [if_pos hr, if_pos hs]
    simp only
    unfold handleQ
    rw [if_pos hs]
    unfold Node.send
    cases hk : env.sendOk s.slv.node.sendN with
    | false =>
      simp only [Bool.false_eq_true, if_false]
      rw [if_neg (by decide)]
      refine ⟨h, rfl, rfl, .inr ⟨hr, ?_, fun _ => rfl, fun e => by cases e⟩⟩
      exact Slave.report_log _ _ _
    | true =>
      simp only [if_true]
      refine ⟨h.pop hs, rfl, rfl, .inr ⟨hr, ?_, fun e => by simp at e, fun _ => pendingOf_pop h hs⟩⟩
      exact Slave.report_log _ _ _

/-- the outcome of an accepted frame -/
theorem enqueue_ok (env : AEnv) (s : Stack) (h : Ring s.q) (nr dlc : Nat) (src : List Byte) (hs : s.q.state < 4)
    (hd : dlc ≤ 8) :
    (s.enqueue env nr dlc src).2 = E.ok ∧ Ring (s.enqueue env nr dlc src).1.q ∧
    (s.enqueue env nr dlc src).1.tnl = s.tnl ∧
    ((s.rc.state = .on ∧ logOf (s.enqueue env nr dlc src).1 = logOf s ∧
      pendingOf (s.enqueue env nr dlc src).1.q = pendingOf s.q ++ [⟨asyncDataTxId nr, dlc, src.take dlc⟩]) ∨
     (s.rc.state ≠ .on ∧ ∃ g rest, pendingOf s.q ++ [⟨asyncDataTxId nr, dlc, src.take dlc⟩] = g :: rest ∧
      logOf (s.enqueue env nr dlc src).1 = .frame g (env.sendOk s.slv.node.sendN) :: logOf s ∧
      pendingOf (s.enqueue env nr dlc src).1.q = if env.sendOk s.slv.node.sendN then rest else g :: rest)) := by
  unfold enqueue
  rw [if_neg (by omega), if_neg (by omega)]
  simp only
  have hp := pendingOf_push h hs ⟨asyncDataTxId nr, dlc, src.take dlc⟩ (if s.q.write < 3 then s.q.write + 1 else 0)
  have hg := h.push hs (upd s.q.buf s.q.write ⟨asyncDataTxId nr, dlc, src.take dlc⟩)
  generalize hf : (⟨asyncDataTxId nr, dlc, src.take dlc⟩ : Frame) = f at hp hg ⊢
  generalize hq : ({ s.q with
      buf := upd s.q.buf s.q.write f
      write := if s.q.write < 3 then s.q.write + 1 else 0
      state := s.q.state + 1 } : DataQ) = q at hp hg ⊢
  have h0 : 0 < q.state := by rw [← hq]; exact Nat.succ_pos _
  obtain ⟨a, b, c, d⟩ := handlerTx_spec env { s with q := q } hg h0
  refine ⟨trivial, a, b, ?_⟩
  rcases d with ⟨d1, d2⟩ | ⟨d1, d2, d3, d4⟩
  · left
    rw [d2]
    exact ⟨d1, rfl, hp⟩
  · right
    refine ⟨d1, q.buf q.read, pendingOf { q with read := if q.read < 3 then q.read + 1 else 0, state := q.state - 1 }, ?_, d2, ?_⟩
    · rw [← hp]; exact pendingOf_pop hg h0
    · dsimp only at d3 d4
      cases hk : env.sendOk s.slv.node.sendN with
      | false =>
        rw [d3 hk]
        exact pendingOf_pop hg h0
      | true =>
        have e := d4 hk
        rw [pendingOf_pop hg h0] at e
        exact (List.cons.inj e).2.symm

theorem enqueue_refused (env : AEnv) (s : Stack) (nr dlc : Nat) (src : List Byte) (h : 4 ≤ s.q.state ∨ 8 < dlc) :
    (s.enqueue env nr dlc src).1 = s ∧ (s.enqueue env nr dlc src).2 ≠ E.ok := by
  unfold enqueue
  by_cases h1 : 4 ≤ s.q.state
  · rw [if_pos h1]; exact ⟨rfl, fun e => absurd (show E.asyncDataTxOverflow = E.ok from e) (by decide)⟩
  · rw [if_neg h1, if_pos (h.resolve_left h1)]; exact ⟨rfl, fun e => absurd (show E.asyncDataTxDlc = E.ok from e) (by decide)⟩

/-- the balance of the queue over a call: what was accepted, what went out -/
theorem enqueue_balance (env : AEnv) (s : Stack) (h : Ring s.q) (nr dlc : Nat) (src : List Byte) :
    Ring (s.enqueue env nr dlc src).1.q ∧ (s.enqueue env nr dlc src).1.tnl = s.tnl ∧
    ((s.enqueue env nr dlc src).2 = E.ok ↔ s.q.state < 4 ∧ dlc ≤ 8) ∧
    pendingOf s.q ++ (if (s.enqueue env nr dlc src).2 = E.ok then [⟨asyncDataTxId nr, dlc, src.take dlc⟩] else []) =
      okFrames (newLog s (s.enqueue env nr dlc src).1) ++ pendingOf (s.enqueue env nr dlc src).1.q := by
  by_cases hc : s.q.state < 4 ∧ dlc ≤ 8
  · obtain ⟨a, b, c, d⟩ := enqueue_ok env s h nr dlc src hc.1 hc.2
    refine ⟨b, c, ⟨fun _ => hc, fun _ => a⟩, ?_⟩
    rw [if_pos a]
    rcases d with ⟨-, d2, d3⟩ | ⟨-, g, rest, d2, d3, d4⟩
    · rw [newLog_of (l := []) d2, d3]; rfl
    · rw [newLog_of (l := [_]) d3, d2, d4]
      cases env.sendOk s.slv.node.sendN <;> rfl
  · obtain ⟨a, b⟩ := enqueue_refused env s nr dlc src (by omega)
    refine ⟨by rw [a]; exact h, by rw [a], ⟨fun e => absurd e b, fun e => absurd e hc⟩, ?_⟩
    rw [a, if_neg b, newLog_self, List.append_nil]; rfl

/-- the tunnel buffer: below eight bytes unless a full object is being handed over -/
def Buf (t : Tunnel) : Prop := (t.lock = 0 ∧ t.tmp.length < 8) ∨ (t.lock = 1 ∧ t.tmp.length = 8)

/-- the frames handed over by an attempt with the tunnel's bytes -/
theorem handOver (env : AEnv) (s : Stack) (h : Ring s.q) (hl : s.tnl.tmp.length ≤ 8) :
    let r := s.enqueue env s.tnl.own s.tnl.tmp.length s.tnl.tmp
    Ring r.1.q ∧ r.1.tnl = s.tnl ∧
    pendingOf s.q ++ (if r.2 = E.ok then [⟨asyncDataTxId s.tnl.own, s.tnl.tmp.length, s.tnl.tmp⟩] else []) =
      okFrames (newLog s r.1) ++ pendingOf r.1.q := by
  intro r
  obtain ⟨a, b, -, d⟩ := enqueue_balance env s h s.tnl.own s.tnl.tmp.length s.tnl.tmp
  rw [List.take_of_length_le (Nat.le_refl _)] at d
  exact ⟨a, b, d⟩

theorem retry_spec (env : AEnv) (s : Stack) (h : Ring s.q) (hb : s.tnl.lock = 1 ∧ s.tnl.tmp.length = 8) :
    ∃ f : List Frame, Ring (s.putcRetry env).1.q ∧ Buf (s.putcRetry env).1.tnl ∧
      pendingOf s.q ++ f = okFrames (newLog s (s.putcRetry env).1) ++ pendingOf (s.putcRetry env).1.q ∧
      (f = [⟨asyncDataTxId s.tnl.own, 8, s.tnl.tmp⟩] ∧ (s.putcRetry env).1.tnl.tmp = [] ∧ (s.putcRetry env).2 = .done E.ok ∨
       f = [] ∧ (s.putcRetry env).1.tnl.tmp = s.tnl.tmp ∧ (s.putcRetry env).2 = .waiting) := by
  obtain ⟨a, b, c⟩ := handOver env s h (by omega)
  unfold putcRetry
  generalize s.enqueue env s.tnl.own s.tnl.tmp.length s.tnl.tmp = r at a b c ⊢
  simp only
  by_cases hr : r.2 = E.ok
  · rw [if_pos hr] at c ⊢
    refine ⟨_, a, .inl ⟨?_, ?_⟩, c, .inl ⟨by rw [hb.2], rfl, rfl⟩⟩
    · show r.1.tnl.lock - 1 = 0; rw [b, hb.1]
    · show ([] : List Byte).length < 8; decide
  · rw [if_neg hr] at c ⊢
    refine ⟨_, a, .inr ?_, c, .inr ⟨rfl, by rw [b], rfl⟩⟩
    rw [b]; exact hb

theorem putc_spec (env : AEnv) (s : Stack) (x : Byte) (h : Ring s.q) (hb : Buf s.tnl) :
    ∃ f : List Frame, Ring (s.putc env x).1.q ∧ Buf (s.putc env x).1.tnl ∧
      pendingOf s.q ++ f = okFrames (newLog s (s.putc env x).1) ++ pendingOf (s.putc env x).1.q ∧
      (∀ g ∈ f, g.dlc = 8 ∧ g.data.length = 8 ∧ g.id = asyncDataTxId s.tnl.own) ∧
      s.tnl.tmp ++ (if (s.putc env x).2 = .done E.ok ∨ (s.putc env x).2 = .waiting then [x] else []) =
        f.flatMap (·.data) ++ (s.putc env x).1.tnl.tmp := by
  unfold putc
  by_cases hl : s.tnl.lock = 0
  · rw [if_neg (by omega)]
    by_cases ha : s.tnl.state = .active
    · rw [if_pos ha]
      simp only
      have h8 : s.tnl.tmp.length < 8 := by
        rcases hb with hb | hb
        · exact hb.2
        · rw [hl] at hb; exact absurd hb.1 (by decide)
      by_cases hf : (s.tnl.tmp ++ [x]).length = 8
      · have hs1 : (s.setT fun t => { t with tmp := t.tmp ++ [x] }).tnl.tmp.length = 8 := hf
        rw [if_pos hs1]
        obtain ⟨f, r1, r2, r3, r4⟩ := retry_spec env
          ((s.setT fun t => { t with tmp := t.tmp ++ [x] }).setT fun t => { t with lock := t.lock + 1 }) h
          ⟨by show s.tnl.lock + 1 = 1; rw [hl], hf⟩
        generalize hs2 : ((s.setT fun t => { t with tmp := t.tmp ++ [x] }).setT fun t => { t with lock := t.lock + 1 }) = s2 at r1 r2 r3 r4 ⊢
        have ht : s2.tnl.tmp = s.tnl.tmp ++ [x] := by rw [← hs2]; rfl
        have ho : s2.tnl.own = s.tnl.own := by rw [← hs2]; rfl
        have hq : s2.q = s.q := by rw [← hs2]; rfl
        have hn : newLog s (s2.putcRetry env).1 = newLog s2 (s2.putcRetry env).1 := by rw [← hs2]; rfl
        rw [hq] at r3
        refine ⟨f, r1, r2, by rw [hn]; exact r3, ?_, ?_⟩
        · rcases r4 with ⟨e, -, -⟩ | ⟨e, -, -⟩
          · rw [e]
            intro g hg
            rw [List.mem_singleton.1 hg, ho, ht]
            exact ⟨rfl, hf, rfl⟩
          · rw [e]; intro g hg; cases hg
        · rcases r4 with ⟨e, e2, e3⟩ | ⟨e, e2, e3⟩
          · rw [e3, if_pos (.inl rfl), e, e2, ht]; simp
          · rw [e3, if_pos (.inr rfl), e, e2, ht]; rfl
      · have hs1 : ¬ (s.setT fun t => { t with tmp := t.tmp ++ [x] }).tnl.tmp.length = 8 := hf
        rw [if_neg hs1]
        refine ⟨[], h, .inl ⟨hl, ?_⟩, ?_, fun g hg => (by cases hg), ?_⟩
        · show (s.tnl.tmp ++ [x]).length < 8
          rw [List.length_append] at hf ⊢
          simp only [List.length_singleton] at hf ⊢
          omega
        · have : newLog s (s.setT fun t => { t with tmp := t.tmp ++ [x] }) = [] := newLog_self s
          rw [this, List.append_nil]; rfl
        · rw [if_pos (.inl rfl)]; rfl
    · rw [if_neg ha]
      refine ⟨[], h, hb, ?_, fun g hg => (by cases hg), ?_⟩
      · rw [newLog_self, List.append_nil]; rfl
      · rw [if_neg (show ¬ (PutRes.done E.tnlWrongState = .done E.ok ∨ PutRes.done E.tnlWrongState = .waiting) by decide), List.append_nil]; rfl
  · rw [if_pos hl]
    refine ⟨[], h, hb, ?_, fun g hg => (by cases hg), ?_⟩
    · rw [newLog_self, List.append_nil]; rfl
    · rw [if_neg (show ¬ (PutRes.done E.tnlBusy = .done E.ok ∨ PutRes.done E.tnlBusy = .waiting) by decide), List.append_nil]; rfl

theorem flush_spec (env : AEnv) (s : Stack) (now : Nat) (h : Ring s.q) (hb : Buf s.tnl) :
    ∃ f : List Frame, Ring (s.processTx env now).1.q ∧ Buf (s.processTx env now).1.tnl ∧
      pendingOf s.q ++ f = okFrames (newLog s (s.processTx env now).1) ++ pendingOf (s.processTx env now).1.q ∧
      (∀ g ∈ f, g.dlc = g.data.length ∧ 0 < g.dlc ∧ g.dlc < 8 ∧ g.id = asyncDataTxId s.tnl.own) ∧
      s.tnl.tmp = f.flatMap (·.data) ++ (s.processTx env now).1.tnl.tmp := by
  have triv : ∃ f : List Frame, Ring s.q ∧ Buf s.tnl ∧
      pendingOf s.q ++ f = okFrames (newLog s s) ++ pendingOf s.q ∧
      (∀ g ∈ f, g.dlc = g.data.length ∧ 0 < g.dlc ∧ g.dlc < 8 ∧ g.id = asyncDataTxId s.tnl.own) ∧
      s.tnl.tmp = f.flatMap (·.data) ++ s.tnl.tmp :=
    ⟨[], h, hb, by rw [newLog_self, List.append_nil]; rfl, fun g hg => (by cases hg), rfl⟩
  unfold processTx
  by_cases hl : s.tnl.lock = 0
  · rw [if_neg (by omega)]
    by_cases ha : s.tnl.state = .active
    · rw [if_pos ha]
      by_cases hc : 0 < s.tnl.tmp.length ∧ u32 (s.tnl.tmp.length + env.ms2t 50) < now
      · rw [if_pos hc]
        have h8 : s.tnl.tmp.length < 8 := by
          rcases hb with hb | hb
          · exact hb.2
          · rw [hl] at hb; exact absurd hb.1 (by decide)
        obtain ⟨a, b, c⟩ := handOver env s h (by omega)
        generalize s.enqueue env s.tnl.own s.tnl.tmp.length s.tnl.tmp = r at a b c ⊢
        simp only
        by_cases hr : r.2 = E.ok
        · rw [if_pos hr] at c ⊢
          refine ⟨_, a, .inl ⟨?_, ?_⟩, c, ?_, ?_⟩
          · show r.1.tnl.lock = 0; rw [b, hl]
          · show ([] : List Byte).length < 8; decide
          · intro g hg; rw [List.mem_singleton.1 hg]; exact ⟨rfl, hc.1, h8, rfl⟩
          · show _ = _ ++ []; simp
        · rw [if_neg hr] at c ⊢
          refine ⟨_, a, ?_, c, fun g hg => (by cases hg), ?_⟩
          · rw [b]; exact hb
          · rw [b]; rfl
      · rw [if_neg hc]; exact triv
    · rw [if_neg ha]; exact triv
  · rw [if_pos hl]; exact triv

end Stack
end LiCan
