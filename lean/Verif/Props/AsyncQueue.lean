import Verif.Lemmas.TxQueue
import Verif.Lemmas.StackExample
/-! # Transmit queue of asynchronous data and the byte stream of the tunnel -/
namespace LiCan
namespace Stack
open Spec

/-- the notes of the observer agree with the state; `pre` was waiting before -/
structure Books (pre : List Frame) (left : List Byte) (o : Obs) (s : Stack) : Prop where
  ring : Ring s.q
  buf : Buf s.tnl
  queue : pre ++ o.acc.map (·.2) = o.sent ++ pendingOf s.q
  stream : left ++ o.wrote = tunnelBytes o.acc ++ s.tnl.tmp
  full : ∀ p ∈ o.acc, p.1 = .full → p.2.dlc = 8 ∧ p.2.data.length = 8
  flush : ∀ p ∈ o.acc, p.1 = .flush → p.2.dlc = p.2.data.length ∧ 0 < p.2.dlc ∧ p.2.dlc < 8

theorem tunnelBytes_append (a b : List (Src × Frame)) : tunnelBytes (a ++ b) = tunnelBytes a ++ tunnelBytes b := by
  simp [tunnelBytes]

theorem appFrames_append (a b : List (Src × Frame)) : appFrames (a ++ b) = appFrames a ++ appFrames b := by
  simp [appFrames]

theorem tunnelBytes_tag (t : Src) (ht : t ≠ .app) (f : List Frame) :
    tunnelBytes (f.map fun f => (t, f)) = f.flatMap (·.data) := by
  unfold tunnelBytes
  rw [List.flatMap_map]
  congr 1
  funext g
  exact if_neg ht

theorem appFrames_tag (t : Src) (ht : t ≠ .app) (f : List Frame) : appFrames (f.map fun f => (t, f)) = [] := by
  unfold appFrames
  rw [List.flatMap_map]
  apply List.flatMap_eq_nil_iff.2
  intro g _
  exact if_neg ht

theorem map_tag (t : Src) (f : List Frame) : (f.map fun f => (t, f)).map (·.2) = f := by
  rw [List.map_map]
  exact List.map_id f

/-- one atom that belongs to none of the calls -/
theorem Books.atom {env : AEnv} {b : Kind} (hb : b.tx = false) {a s s' : Stack} {o : Obs} (h : Hist env a o s) (k : Books pre left o s)
    (g : Atom env b s s') :
    ∃ o', Hist env a o' s' ∧ Books pre left o' s' ∧ o'.wrote = o.wrote ∧ appFrames o'.acc = appFrames o.acc := by
  have oth : ∀ {t : Stack}, t.q = s.q → t.tnl.tmp = s.tnl.tmp → t.tnl.lock = s.tnl.lock →
      ∃ o', Hist env a o' t ∧ Books pre left o' t ∧ o'.wrote = o.wrote ∧ appFrames o'.acc = appFrames o.acc := by
    intro t h1 h2 h3
    refine ⟨o, .other h h1 h2 h3, ⟨?_, ?_, ?_, ?_, k.full, k.flush⟩, rfl, rfl⟩
    · rw [h1]; exact k.ring
    · unfold Buf; rw [h2, h3]; exact k.buf
    · rw [h1]; exact k.queue
    · rw [h2]; exact k.stream
  cases g with
  | rest r => exact oth r.q r.tmp r.lock
  | restT r => exact oth r.q r.tmp r.lock
  | enqueue => rename_i e; rw [hb] at e; cases e
  | putc => rename_i e; rw [hb] at e; cases e
  | hnd => exact oth (by unfold setHnd; split <;> rfl) (by unfold setHnd; split <;> rfl) (by unfold setHnd; split <;> rfl)
  | rcCb => rename_i c f _; cases c <;> (unfold setRcCb; dsimp only; split <;> exact oth rfl rfl rfl)
  | timeCb => exact oth rfl rfl rfl
  | resetCb => exact oth rfl rfl rfl
  | retry =>
    rename_i hl
    have hb : s.tnl.lock = 1 ∧ s.tnl.tmp.length = 8 := by
      rcases k.buf with e | e
      · exact absurd e.1 hl
      · exact e
    obtain ⟨f, h1, h2, h3, h4⟩ := retry_spec env s k.ring hb
    refine ⟨_, .retry h hl f, ⟨h1, h2, ?_, ?_, ?_, ?_⟩, rfl, ?_⟩
    · dsimp only
      rw [List.map_append, map_tag, ← List.append_assoc, k.queue, List.append_assoc, h3, ← List.append_assoc]
    · dsimp only
      rw [k.stream, tunnelBytes_append, tunnelBytes_tag _ (by decide)]
      rcases h4 with ⟨e, e2, -⟩ | ⟨e, e2, -⟩
      · rw [e, e2]; simp
      · rw [e, e2]; simp
    · intro p hp hf
      rcases List.mem_append.1 hp with hp | hp
      · exact k.full p hp hf
      · rcases h4 with ⟨e, e2, -⟩ | ⟨e, e2, -⟩
        · rw [e] at hp
          rw [List.mem_singleton.1 hp]
          exact ⟨rfl, hb.2⟩
        · rw [e] at hp; cases hp
    · intro p hp hf
      rcases List.mem_append.1 hp with hp | hp
      · exact k.flush p hp hf
      · obtain ⟨g, -, rfl⟩ := List.mem_map.1 hp
        cases hf
    · dsimp only
      rw [appFrames_append, appFrames_tag _ (by decide), List.append_nil]
  | flush =>
    rename_i now
    obtain ⟨f, h1, h2, h3, h4, h5⟩ := flush_spec env s now k.ring k.buf
    refine ⟨_, .flush h now f, ⟨h1, h2, ?_, ?_, ?_, ?_⟩, rfl, ?_⟩
    · dsimp only
      rw [List.map_append, map_tag, ← List.append_assoc, k.queue, List.append_assoc, h3, ← List.append_assoc]
    · dsimp only
      rw [k.stream, tunnelBytes_append, tunnelBytes_tag _ (by decide), List.append_assoc, ← h5]
    · intro p hp hf
      rcases List.mem_append.1 hp with hp | hp
      · exact k.full p hp hf
      · obtain ⟨g, -, rfl⟩ := List.mem_map.1 hp
        cases hf
    · intro p hp hf
      rcases List.mem_append.1 hp with hp | hp
      · exact k.flush p hp hf
      · obtain ⟨g, hg, rfl⟩ := List.mem_map.1 hp
        obtain ⟨a, b, c, -⟩ := h4 g hg
        exact ⟨a, b, c⟩
    · dsimp only
      rw [appFrames_append, appFrames_tag _ (by decide), List.append_nil]

theorem Books.atoms {env : AEnv} {b : Kind} (hb : b.tx = false) {a s s' : Stack} {o : Obs} (h : Hist env a o s) (k : Books pre left o s)
    (g : Atoms env b s s') :
    ∃ o', Hist env a o' s' ∧ Books pre left o' s' ∧ o'.wrote = o.wrote ∧ appFrames o'.acc = appFrames o.acc := by
  induction g with
  | nil => exact ⟨o, h, k, rfl, rfl⟩
  | snoc _ g ih =>
    obtain ⟨o1, a1, a2, a3, a4⟩ := ih
    obtain ⟨o2, b1, b2, b3, b4⟩ := Books.atom hb a1 a2 g
    exact ⟨o2, b1, b2, b3.trans a3, b4.trans a4⟩

/-- the books over a history -/
theorem books {env : AEnv} {a : Stack} {pre : List Frame} {left : List Byte} (is : List SIn) : ∀ {s s' : Stack} {o : Obs}, Hist env a o s → Books pre left o s →
    s.run env is = some s' →
    ∃ o', Hist env a o' s' ∧ Books pre left o' s' ∧ o'.wrote = o.wrote ++ written env s is ∧
      appFrames o'.acc = appFrames o.acc ++ handed env s is := by
  induction is with
  | nil =>
    intro s s' o h k hr
    injection hr with hr
    subst hr
    exact ⟨o, h, k, by simp [written], by simp [handed]⟩
  | cons i is ih =>
    intro s s' o h k hr
    simp only [Stack.run, Option.bind_eq_some_iff] at hr
    obtain ⟨s1, h1, h2⟩ := hr
    have key : ∃ o1, Hist env a o1 s1 ∧ Books pre left o1 s1 ∧
        o1.wrote = o.wrote ++ wroteBy env s i ∧
        appFrames o1.acc = appFrames o.acc ++ handedBy env s i := by
      have plain : isTx i = false → ∃ o1, Hist env a o1 s1 ∧ Books pre left o1 s1 ∧ o1.wrote = o.wrote ++ [] ∧
          appFrames o1.acc = appFrames o.acc ++ [] := by
        intro hi
        rw [List.append_nil, List.append_nil]
        exact Books.atoms hi h k (step_atoms h1)
      cases i with
      | putc x =>
        injection h1 with h1
        subst h1
        obtain ⟨f, e1, e2, e3, e4, e5⟩ := putc_spec env s x k.ring k.buf
        refine ⟨_, .putc h x f, ⟨e1, e2, ?_, ?_, ?_, ?_⟩, rfl, ?_⟩
        · dsimp only
          rw [List.map_append, map_tag, ← List.append_assoc, k.queue, List.append_assoc, e3, ← List.append_assoc]
        · dsimp only
          rw [← List.append_assoc, k.stream, tunnelBytes_append, tunnelBytes_tag _ (by decide), List.append_assoc, e5, ← List.append_assoc]
        · intro p hp hf
          rcases List.mem_append.1 hp with hp | hp
          · exact k.full p hp hf
          · obtain ⟨g, hg, rfl⟩ := List.mem_map.1 hp
            exact ⟨(e4 g hg).1, (e4 g hg).2.1⟩
        · intro p hp hf
          rcases List.mem_append.1 hp with hp | hp
          · exact k.flush p hp hf
          · obtain ⟨g, -, rfl⟩ := List.mem_map.1 hp
            cases hf
        · dsimp only
          rw [appFrames_append, appFrames_tag _ (by decide)]
          rfl
      | enqueue nr dlc src =>
        injection h1 with h1
        subst h1
        obtain ⟨e1, e2, -, e4⟩ := enqueue_balance env s k.ring nr dlc src
        refine ⟨_, .enqueue h nr dlc src, ⟨e1, ?_, ?_, ?_, ?_, ?_⟩, (List.append_nil _).symm, ?_⟩
        · rw [e2]; exact k.buf
        · dsimp only
          rw [List.map_append, ← List.append_assoc, k.queue, List.append_assoc, List.append_assoc, ← e4]
          congr 2
          split <;> rfl
        · dsimp only
          rw [k.stream, tunnelBytes_append, e2]
          split <;> simp [tunnelBytes]
        · intro p hp hf
          rcases List.mem_append.1 hp with hp | hp
          · exact k.full p hp hf
          · split at hp
            · rw [List.mem_singleton.1 hp] at hf; cases hf
            · cases hp
        · intro p hp hf
          rcases List.mem_append.1 hp with hp | hp
          · exact k.flush p hp hf
          · split at hp
            · rw [List.mem_singleton.1 hp] at hf; cases hf
            · cases hp
        · dsimp only
          rw [appFrames_append]
          congr 1
          show _ = if (s.enqueue env nr dlc src).2 = E.ok then [_] else []
          by_cases e : (s.enqueue env nr dlc src).2 = E.ok
          · rw [if_pos e, if_pos e]; rfl
          · rw [if_neg e, if_neg e]; rfl
      | _ => exact plain rfl
    obtain ⟨o1, a1, a2, a3, a4⟩ := key
    obtain ⟨o2, b1, b2, b3, b4⟩ := ih a1 a2 h2
    refine ⟨o2, b1, b2, ?_, ?_⟩
    · rw [b3, a3, List.append_assoc]
      simp only [written, h1]
    · rw [b4, a4, List.append_assoc]
      simp only [handed, h1]

theorem Books.boot (mem : Nat → List Byte) (info : XInfo) : Books [] [] {} (boot mem info) :=
  ⟨⟨by show 0 < 4; decide, by show 0 ≤ 4; decide, rfl⟩, .inl ⟨rfl, by show 0 < 8; decide⟩, rfl, rfl,
    fun _ h => (by cases h), fun _ h => (by cases h)⟩

theorem books_boot {env : AEnv} {mem : Nat → List Byte} {info : XInfo} {is : List SIn} {s : Stack}
    (h : run env (boot mem info) is = some s) :
    ∃ o, Hist env (boot mem info) o s ∧ Books [] [] o s ∧ o.wrote = written env (boot mem info) is ∧
      appFrames o.acc = handed env (boot mem info) is := by
  obtain ⟨o, a, b, c, d⟩ := books is (.nil _) (Books.boot mem info) h
  exact ⟨o, a, b, c, d⟩

/-! ## C32 -/

/-- **C32**, over any history: frames leave in the order in which they were accepted, none is lost or
sent twice, and at most four wait.  The frames accepted are those of the calls that returned OK and those
of the tunnel. -/
theorem C32_fifo {env : AEnv} {mem : Nat → List Byte} {info : XInfo} {is : List SIn} {s : Stack}
    (h : run env (boot mem info) is = some s) :
    ∃ o, Hist env (boot mem info) o s ∧ appFrames o.acc = handed env (boot mem info) is ∧
      o.acc.map (·.2) = o.sent ++ pendingOf s.q ∧ (pendingOf s.q).length ≤ 4 := by
  obtain ⟨o, a, b, -, d⟩ := books_boot h
  exact ⟨o, a, d, b.queue, by rw [pendingOf_length]; exact b.ring.state⟩

theorem reach_ring {env : AEnv} {mem : Nat → List Byte} {info : XInfo} {is : List SIn} {s : Stack}
    (h : run env (boot mem info) is = some s) : Ring s.q := by
  obtain ⟨o, -, b, -, -⟩ := books_boot h
  exact b.ring

/-- **C32**, refusal: a frame is refused exactly if four frames wait or it is too long; then nothing
changes. -/
theorem C32_refused {env : AEnv} {mem : Nat → List Byte} {info : XInfo} {is : List SIn} {s : Stack}
    (h : run env (boot mem info) is = some s) (nr dlc : Nat) (src : List Byte) :
    ((s.enqueue env nr dlc src).2 = E.ok ↔ (pendingOf s.q).length < 4 ∧ dlc ≤ 8) ∧
    ((s.enqueue env nr dlc src).2 ≠ E.ok → (s.enqueue env nr dlc src).1 = s ∧
      (s.enqueue env nr dlc src).2 =
        if (pendingOf s.q).length = 4 then E.asyncDataTxOverflow else E.asyncDataTxDlc) := by
  have hr := reach_ring h
  have hs := hr.state
  rw [pendingOf_length]
  obtain ⟨-, -, e, -⟩ := enqueue_balance env s hr nr dlc src
  refine ⟨e, fun hn => ?_⟩
  have hc : 4 ≤ s.q.state ∨ 8 < dlc := by
    have := mt e.2 hn
    omega
  refine ⟨(enqueue_refused env s nr dlc src hc).1, ?_⟩
  unfold enqueue
  by_cases h4 : 4 ≤ s.q.state
  · rw [if_pos h4, if_pos (by omega)]
  · rw [if_neg h4, if_pos (hc.resolve_left h4), if_neg (by omega)]

/-- **C32**, an accepted frame: the oldest waiting frame is offered to the driver once (none while a
search of the baud rate is on); if the driver refuses it, it stays at the head. -/
theorem C32_accepted {env : AEnv} {mem : Nat → List Byte} {info : XInfo} {is : List SIn} {s : Stack}
    (h : run env (boot mem info) is = some s) (nr dlc : Nat) (src : List Byte)
    (hk : (s.enqueue env nr dlc src).2 = E.ok) :
    let s' := (s.enqueue env nr dlc src).1
    let all := pendingOf s.q ++ [⟨asyncDataTxId nr, dlc, src.take dlc⟩]
    if s.rc.state = .on then logOf s' = logOf s ∧ pendingOf s'.q = all
    else ∃ g rest, all = g :: rest ∧ logOf s' = .frame g (env.sendOk s.slv.node.sendN) :: logOf s ∧
      pendingOf s'.q = if env.sendOk s.slv.node.sendN then rest else all := by
  intro s' all
  have hr := reach_ring h
  obtain ⟨-, -, e, -⟩ := enqueue_balance env s hr nr dlc src
  obtain ⟨h1, h2⟩ := e.1 hk
  obtain ⟨-, -, -, d⟩ := enqueue_ok env s hr nr dlc src h1 h2
  rcases d with ⟨d1, d2, d3⟩ | ⟨d1, g, rest, d2, d3, d4⟩
  · rw [if_pos d1]; exact ⟨d2, d3⟩
  · rw [if_neg d1]
    exact ⟨g, rest, d2, d3, by rw [← d2] at d4; exact d4⟩

/-! ## C35 -/

/-- **C35**: over any history the bytes taken over by `can_async_tunnel_putc` are the payloads of the
frames handed to the transmit queue, in order, followed by what is still buffered; a frame handed over by
a write carries exactly eight bytes, one handed over after the waiting time one to seven. -/
theorem C35_stream {env : AEnv} {mem : Nat → List Byte} {info : XInfo} {is : List SIn} {s : Stack}
    (h : run env (boot mem info) is = some s) :
    ∃ o, Hist env (boot mem info) o s ∧ o.wrote = written env (boot mem info) is ∧
      o.acc.map (·.2) = o.sent ++ pendingOf s.q ∧
      o.wrote = tunnelBytes o.acc ++ s.tnl.tmp ∧
      (∀ p ∈ o.acc, p.1 = .full → p.2.dlc = 8 ∧ p.2.data.length = 8) ∧
      (∀ p ∈ o.acc, p.1 = .flush → p.2.dlc = p.2.data.length ∧ 0 < p.2.dlc ∧ p.2.dlc < 8) ∧
      s.tnl.tmp.length ≤ 8 := by
  obtain ⟨o, a, b, c, -⟩ := books_boot h
  refine ⟨o, a, c, b.queue, b.stream, b.full, b.flush, ?_⟩
  rcases b.buf with e | e
  · exact Nat.le_of_lt e.2
  · exact Nat.le_of_eq e.2

/-- **C35**, one write: it is taken over iff a session is active and no other write is waiting for room;
the eighth byte hands over exactly the eight buffered bytes under the session's own identifier if there is room. -/
theorem C35_putc {env : AEnv} {mem : Nat → List Byte} {info : XInfo} {is : List SIn} {s : Stack}
    (h : run env (boot mem info) is = some s) (x : Byte) :
    if s.tnl.tmp.length = 8 then s.putc env x = (s, .done E.tnlBusy)
    else if s.tnl.state ≠ .active then s.putc env x = (s, .done E.tnlWrongState)
    else if s.tnl.tmp.length < 7 then
      (s.putc env x).2 = .done E.ok ∧ (s.putc env x).1.tnl.tmp = s.tnl.tmp ++ [x] ∧
        (s.putc env x).1.q = s.q ∧ logOf (s.putc env x).1 = logOf s
    else if (pendingOf s.q).length < 4 then
      (s.putc env x).2 = .done E.ok ∧ (s.putc env x).1.tnl.tmp = [] ∧
        pendingOf s.q ++ [⟨asyncDataTxId s.tnl.own, 8, s.tnl.tmp ++ [x]⟩] =
          okFrames (newLog s (s.putc env x).1) ++ pendingOf (s.putc env x).1.q
    else (s.putc env x).2 = .waiting ∧ (s.putc env x).1.tnl.tmp = s.tnl.tmp ++ [x] ∧
      (s.putc env x).1.q = s.q ∧ logOf (s.putc env x).1 = logOf s := by
  obtain ⟨o, -, b, -, -⟩ := books_boot h
  have hb := b.buf
  have hr := b.ring
  by_cases h8 : s.tnl.tmp.length = 8
  · rw [if_pos h8]
    have hl : s.tnl.lock ≠ 0 := by
      rcases hb with e | e
      · omega
      · omega
    unfold putc; rw [if_pos hl]
  · rw [if_neg h8]
    have hl : s.tnl.lock = 0 ∧ s.tnl.tmp.length < 8 := by
      rcases hb with e | e
      · exact e
      · exact absurd e.2 h8
    by_cases ha : s.tnl.state = .active
    · rw [if_neg (by simpa using ha)]
      by_cases h7 : s.tnl.tmp.length < 7
      · rw [if_pos h7]
        unfold putc
        rw [if_neg (show ¬ s.tnl.lock ≠ 0 by simpa using hl.1), if_pos ha]
        simp only
        have hs1 : ¬ (s.setT fun t => { t with tmp := t.tmp ++ [x] }).tnl.tmp.length = 8 := by
          show ¬ (s.tnl.tmp ++ [x]).length = 8
          simp; omega
        rw [if_neg hs1]
        exact ⟨rfl, rfl, rfl, rfl⟩
      · rw [if_neg h7, pendingOf_length]
        unfold putc
        rw [if_neg (show ¬ s.tnl.lock ≠ 0 by simpa using hl.1), if_pos ha]
        simp only
        have hf : (s.tnl.tmp ++ [x]).length = 8 := by simp; omega
        have hs1 : (s.setT fun t => { t with tmp := t.tmp ++ [x] }).tnl.tmp.length = 8 := hf
        rw [if_pos hs1]
        generalize hs2 : ((s.setT fun t => { t with tmp := t.tmp ++ [x] }).setT fun t => { t with lock := t.lock + 1 }) = s2
        have hrt : Ring s2.q := by rw [← hs2]; exact hr
        have ht : s2.tnl.tmp = s.tnl.tmp ++ [x] := by rw [← hs2]; rfl
        have ho : s2.tnl.own = s.tnl.own := by rw [← hs2]; rfl
        have hq : s2.q = s.q := by rw [← hs2]; rfl
        have hlg : logOf s2 = logOf s := by rw [← hs2]; rfl
        have hn : ∀ t, newLog s t = newLog s2 t := by intro t; unfold newLog; rw [hlg]
        obtain ⟨a1, a2, a3, a4⟩ := enqueue_balance env s2 hrt s2.tnl.own s2.tnl.tmp.length s2.tnl.tmp
        rw [List.take_of_length_le (Nat.le_refl _)] at a4
        unfold putcRetry
        by_cases h4 : s.q.state < 4
        · have hk := a3.2 ⟨by rw [hq]; exact h4, Nat.le_of_eq (by rw [ht, hf])⟩
          rw [if_pos h4]
          simp only
          rw [if_pos hk] at a4 ⊢
          refine ⟨rfl, rfl, ?_⟩
          rw [hn]
          rw [hq, ho] at a4
          rw [ht, hf] at a4
          rw [← ho] at a4 ⊢
          have e8 : s2.tnl.tmp.length = 8 := by rw [ht, hf]
          rw [ht, hf]
          exact a4
        · obtain ⟨c1, c2⟩ := enqueue_refused env s2 s2.tnl.own s2.tnl.tmp.length s2.tnl.tmp (.inl (by rw [hq]; omega))
          rw [if_neg h4]
          simp only
          rw [if_neg c2, c1]
          exact ⟨rfl, ht, hq, hlg⟩
    · rw [if_pos ha]
      unfold putc
      rw [if_neg (show ¬ s.tnl.lock ≠ 0 by simpa using hl.1), if_neg ha]

/-! ## C59 -/

/-- nothing moves once four frames wait -/
theorem Atom.stuck {b : Kind} {s s' : Stack} (h : Atom env b s s') (h4 : 4 ≤ s.q.state) :
    s'.q = s.q ∧ (s.tnl.lock ≠ 0 → s'.tnl.tmp = s.tnl.tmp ∧ s'.tnl.lock = s.tnl.lock) := by
  cases h with
  | rest r => exact ⟨r.q, fun _ => ⟨r.tmp, r.lock⟩⟩
  | restT r => exact ⟨r.q, fun _ => ⟨r.tmp, r.lock⟩⟩
  | enqueue => rw [(enqueue_refused env s _ _ _ (.inl h4)).1]; exact ⟨rfl, fun _ => ⟨rfl, rfl⟩⟩
  | putc =>
    rename_i x _
    unfold Stack.putc
    by_cases hl : s.tnl.lock = 0
    · refine ⟨?_, fun hn => absurd hl hn⟩
      rw [if_neg (by simpa using hl)]
      split
      · simp only
        split
        · unfold putcRetry
          simp only
          generalize hs2 : ((s.setT fun t => { t with tmp := t.tmp ++ [x] }).setT fun t => { t with lock := t.lock + 1 }) = s2
          have hq : s2.q = s.q := by rw [← hs2]; rfl
          obtain ⟨c1, c2⟩ := enqueue_refused env s2 s2.tnl.own s2.tnl.tmp.length s2.tnl.tmp (.inl (by rw [hq]; exact h4))
          rw [if_neg c2, c1]
          exact hq
        · rfl
      · rfl
    · rw [if_pos hl]; exact ⟨rfl, fun _ => ⟨rfl, rfl⟩⟩
  | retry =>
    unfold putcRetry
    obtain ⟨c1, c2⟩ := enqueue_refused env s s.tnl.own s.tnl.tmp.length s.tnl.tmp (.inl h4)
    simp only
    rw [if_neg c2, c1]
    exact ⟨rfl, fun _ => ⟨rfl, rfl⟩⟩
  | flush =>
    unfold processTx
    by_cases hl : s.tnl.lock = 0
    · refine ⟨?_, fun hn => absurd hl hn⟩
      rw [if_neg (by simpa using hl)]
      obtain ⟨c1, c2⟩ := enqueue_refused env s s.tnl.own s.tnl.tmp.length s.tnl.tmp (.inl h4)
      split
      · split
        · simp only
          rw [if_neg c2, c1]
        · rfl
      · rfl
    · rw [if_pos hl]; exact ⟨rfl, fun _ => ⟨rfl, rfl⟩⟩
  | hnd => unfold setHnd; split <;> exact ⟨rfl, fun _ => ⟨rfl, rfl⟩⟩
  | rcCb =>
    rename_i k f _
    cases k <;> (unfold setRcCb; dsimp only; split <;> exact ⟨rfl, fun _ => ⟨rfl, rfl⟩⟩)
  | timeCb => exact ⟨rfl, fun _ => ⟨rfl, rfl⟩⟩
  | resetCb => exact ⟨rfl, fun _ => ⟨rfl, rfl⟩⟩

theorem Atoms.stuck {b : Kind} {s s' : Stack} (h : Atoms env b s s') (h4 : 4 ≤ s.q.state) :
    s'.q = s.q ∧ (s.tnl.lock ≠ 0 → s'.tnl.tmp = s.tnl.tmp ∧ s'.tnl.lock = s.tnl.lock) := by
  induction h with
  | nil => exact ⟨rfl, fun _ => ⟨rfl, rfl⟩⟩
  | snoc _ g ih =>
    obtain ⟨a, b⟩ := ih
    obtain ⟨c, d⟩ := g.stuck (by rw [a]; exact h4)
    refine ⟨c.trans a, fun hn => ?_⟩
    obtain ⟨e1, e2⟩ := b hn
    obtain ⟨f1, f2⟩ := d (by rw [e2]; exact hn)
    exact ⟨f1.trans e1, f2.trans e2⟩

/-- **C59** is false: once four frames wait, no call, no received frame and no passing of time ever
makes room again, whatever the driver does: the same four frames wait, every further frame is refused, and a
`can_async_tunnel_putc` waiting for room never returns (each turn of its loop ends in another one). -/
theorem C59_stuck {env : AEnv} {mem : Nat → List Byte} {info : XInfo} {is is' : List SIn} {s s' : Stack}
    (h : run env (boot mem info) is = some s) (h4 : (pendingOf s.q).length = 4)
    (h' : run env s is' = some s') :
    pendingOf s'.q = pendingOf s.q ∧
    (∀ nr dlc src, s'.enqueue env nr dlc src = (s', E.asyncDataTxOverflow)) ∧
    (s.tnl.tmp.length = 8 → s'.tnl.tmp = s.tnl.tmp ∧ s'.putcRetry env = (s', .waiting)) := by
  rw [pendingOf_length] at h4
  obtain ⟨a, b⟩ := (run_atoms is' h').stuck (Nat.le_of_eq h4.symm)
  have h5 : 4 ≤ s'.q.state := by rw [a]; omega
  refine ⟨by rw [a], fun nr dlc src => by unfold enqueue; rw [if_pos h5], fun h8 => ?_⟩
  obtain ⟨o, -, k, -, -⟩ := books_boot h
  have hl : s.tnl.lock ≠ 0 := by
    rcases k.buf with e | e <;> omega
  refine ⟨(b hl).1, ?_⟩
  obtain ⟨c1, c2⟩ := enqueue_refused env s' s'.tnl.own s'.tnl.tmp.length s'.tnl.tmp (.inl h5)
  unfold putcRetry
  simp only
  rw [if_neg c2, c1]

/-- a sequence of calls with their results -/
def enqueues (env : AEnv) : Stack → List (Nat × Nat × List Byte) → Stack × List Err
  | s, [] => (s, [])
  | s, (nr, dlc, src) :: l =>
    let r := s.enqueue env nr dlc src
    let t := enqueues env r.1 l
    (t.1, r.2 :: t.2)

theorem sendN_enqueue (env : AEnv) (s : Stack) (nr dlc : Nat) (src : List Byte) :
    s.slv.node.sendN ≤ (s.enqueue env nr dlc src).1.slv.node.sendN ∧
    (s.enqueue env nr dlc src).1.rc = s.rc := by
  have hr : ∀ (n : Node) (e : Err), (n.report env.toEnv e).sendN = n.sendN := by
    intro n e; unfold Node.report; split <;> rfl
  have hh : ∀ s : Stack, s.slv.node.sendN ≤ (handleQ env s).1.slv.node.sendN ∧ (handleQ env s).1.rc = s.rc := by
    intro s
    unfold handleQ
    split
    · dsimp only
      split
      · exact ⟨Nat.le_succ _, rfl⟩
      · exact ⟨Nat.le_succ _, rfl⟩
    · exact ⟨Nat.le_refl _, rfl⟩
  have hk : ∀ s : Stack, s.slv.node.sendN ≤ (handlerTx env s).slv.node.sendN ∧ (handlerTx env s).rc = s.rc := by
    intro s
    unfold handlerTx
    split
    · split
      · refine ⟨?_, (hh s).2⟩
        show _ ≤ (Node.report _ _ _).sendN
        rw [hr]
        exact (hh s).1
      · exact ⟨Nat.le_refl _, rfl⟩
    · exact ⟨Nat.le_refl _, rfl⟩
  unfold enqueue
  split
  · exact ⟨Nat.le_refl _, rfl⟩
  split
  · exact ⟨Nat.le_refl _, rfl⟩
  · obtain ⟨a, b⟩ := hk { s with q := { s.q with
      buf := upd s.q.buf s.q.write ⟨asyncDataTxId nr, dlc, src.take dlc⟩
      write := if s.q.write < 3 then s.q.write + 1 else 0
      state := s.q.state + 1 } }
    exact ⟨a, b⟩

theorem enqueues_flow {env : AEnv} (l : List (Nat × Nat × List Byte)) : ∀ {s : Stack}, Ring s.q → s.q.state < 4 →
    s.rc.state ≠ .on → (∀ k, s.slv.node.sendN ≤ k → env.sendOk k = true) → (∀ p ∈ l, p.2.1 ≤ 8) →
    (enqueues env s l).2 = l.map (fun _ => E.ok) ∧
    (pendingOf (enqueues env s l).1.q).length = (pendingOf s.q).length ∧
    pendingOf s.q ++ l.map (fun p => ⟨asyncDataTxId p.1, p.2.1, p.2.2.take p.2.1⟩) =
      okFrames (newLog s (enqueues env s l).1) ++ pendingOf (enqueues env s l).1.q ∧
    ∃ e, logOf (enqueues env s l).1 = e ++ logOf s := by
  induction l with
  | nil =>
    intro s _ _ _ _ _
    refine ⟨rfl, rfl, ?_, [], rfl⟩
    show _ = okFrames (newLog s s) ++ pendingOf s.q
    rw [newLog_self]
    simp [okFrames]
  | cons p l ih =>
    intro s hr hs hc ha hd
    obtain ⟨nr, dlc, src⟩ := p
    have hd8 : dlc ≤ 8 := hd (nr, dlc, src) (List.mem_cons_self ..)
    obtain ⟨a, b, -, d⟩ := enqueue_ok env s hr nr dlc src hs hd8
    obtain ⟨n1, n2⟩ := sendN_enqueue env s nr dlc src
    have hk := ha s.slv.node.sendN (Nat.le_refl _)
    rw [hk] at d
    obtain ⟨d1, d2, d3⟩ | ⟨-, g, rest, d2, d3, d4⟩ := d
    · exact absurd d1 hc
    · rw [if_pos rfl] at d4
      unfold enqueues
      simp only
      generalize hs1 : (s.enqueue env nr dlc src).1 = s1 at *
      have hlen : (pendingOf s1.q).length = (pendingOf s.q).length := by
        rw [d4]
        have := congrArg List.length d2
        simp at this
        omega
      obtain ⟨i1, i2, i3, e, i4⟩ := ih b (by rw [← pendingOf_length, hlen, pendingOf_length]; exact hs)
        (by rw [n2]; exact hc) (fun k hk => ha k (by omega)) (fun p hp => hd p (List.mem_cons_of_mem _ hp))
      refine ⟨?_, ?_, ?_, e ++ [.frame g true], ?_⟩
      · rw [a, i1]; rfl
      · rw [i2, hlen]
      · have hn : newLog s (enqueues env s1 l).1 = e ++ [.frame g true] :=
          newLog_of (by rw [i4, d3, List.append_assoc]; rfl)
        have hn1 : newLog s1 (enqueues env s1 l).1 = e := newLog_of i4
        rw [hn1] at i3
        rw [hn, List.map_cons, ← List.singleton_append, ← List.append_assoc]
        dsimp only
        rw [d2, List.cons_append, ← d4, i3]
        simp [okFrames]
      · rw [i4, d3, List.append_assoc]; rfl

/-- **C59**, what holds: as long as fewer than four frames wait, no search is on and the driver accepts,
every further frame handed over moves the queue on by one; after `n` of them the `n` oldest have gone out. -/
theorem C59_partial {env : AEnv} {mem : Nat → List Byte} {info : XInfo} {is : List SIn} {s : Stack}
    (h : run env (boot mem info) is = some s) (h4 : (pendingOf s.q).length < 4) (hc : s.rc.state ≠ .on)
    (ha : ∀ k, s.slv.node.sendN ≤ k → env.sendOk k = true) (l : List (Nat × Nat × List Byte))
    (hd : ∀ p ∈ l, p.2.1 ≤ 8) :
    (enqueues env s l).2 = l.map (fun _ => E.ok) ∧
    okFrames (newLog s (enqueues env s l).1) =
      (pendingOf s.q ++ l.map fun p => (⟨asyncDataTxId p.1, p.2.1, p.2.2.take p.2.1⟩ : Frame)).take l.length ∧
    pendingOf (enqueues env s l).1.q =
      (pendingOf s.q ++ l.map fun p => (⟨asyncDataTxId p.1, p.2.1, p.2.2.take p.2.1⟩ : Frame)).drop l.length := by
  rw [pendingOf_length] at h4
  obtain ⟨a, b, c, -⟩ := enqueues_flow l (reach_ring h) h4 hc ha hd
  have hl : (okFrames (newLog s (enqueues env s l).1)).length = l.length := by
    have := congrArg List.length c
    rw [List.length_append, List.length_append, List.length_map] at this
    omega
  refine ⟨a, ?_, ?_⟩
  · rw [c, ← hl, List.take_left]
  · rw [c, ← hl, List.drop_left]

/-! ## Cases -/

/-- the driver refuses the second frame only -/
def exOnce : AEnv := { exA with sendOk := fun k => decide (k ≠ 1) }

/-- module 3 opens a session with module 5 -/
def exOpened : List SIn := exSetup ++ [.rx 0 5 8 0x610 false [1, 3, 0, 0, 0, 0, 20, 0]]

/-- 19 bytes written, then the waiting time passes and the application sends a frame of its own -/
def exWrite : List SIn :=
  exOpened ++ (List.range 19).map (fun k => SIn.putc (UInt8.ofNat k)) ++
  [.process 60 .active .none, .enqueue 9 2 [70, 71, 72]]

/-- C32, C35: a history with a refusal by the driver, full frames, a flushed one and one of the application -/
example :
    (run exOnce (boot Node.exMem exInfo) exWrite).map (fun s => ((exFrames s).drop 1, pendingOf s.q, s.tnl.tmp)) =
      some ([⟨0x613, 8, [0, 1, 2, 3, 4, 5, 6, 7]⟩, ⟨0x613, 8, [8, 9, 10, 11, 12, 13, 14, 15]⟩, ⟨0x613, 3, [16, 17, 18]⟩],
        [⟨0x623, 2, [70, 71]⟩], []) ∧
    written exOnce (boot Node.exMem exInfo) exWrite = (List.range 19).map UInt8.ofNat ∧
    handed exOnce (boot Node.exMem exInfo) exWrite = [⟨0x623, 2, [70, 71]⟩] := by
  decide +kernel

/-- the driver refuses the first four frames and accepts everything afterwards -/
def exBusy : AEnv := { exA with sendOk := fun k => decide (4 ≤ k) }

/-- **C59**: four frames handed over while the driver is busy; then the driver accepts again, time passes, but
nothing is sent and the fifth frame is refused. -/
theorem C59_counterexample :
    ∃ s : Stack, run exBusy (boot Node.exMem exInfo) (exSetup ++ List.replicate 4 (.enqueue 5 1 [1])) = some s ∧
      (pendingOf s.q).length = 4 ∧ (∀ k, s.slv.node.sendN ≤ k → exBusy.sendOk k = true) ∧
      ∀ is s', run exBusy s is = some s' → pendingOf s'.q = pendingOf s.q ∧
        ∀ nr dlc src, (s'.enqueue exBusy nr dlc src).2 = E.asyncDataTxOverflow := by
  have hk : ((run exBusy (boot Node.exMem exInfo) (exSetup ++ List.replicate 4 (.enqueue 5 1 [1]))).map
      fun s => ((pendingOf s.q).length, s.slv.node.sendN)) = some (4, 4) := by decide +kernel
  rw [Option.map_eq_some_iff] at hk
  obtain ⟨s, hs, he⟩ := hk
  have h4 : (pendingOf s.q).length = 4 := congrArg Prod.fst he
  have hn : s.slv.node.sendN = 4 := congrArg Prod.snd he
  refine ⟨s, hs, h4, fun k hk => ?_, fun is s' hr => ?_⟩
  · show decide (4 ≤ k) = true
    rw [hn] at hk
    exact decide_eq_true hk
  · obtain ⟨a, b, -⟩ := C59_stuck hs h4 hr
    exact ⟨a, fun nr dlc src => by rw [b]⟩

/-- C59: a write that never returns (the driver refuses frames 1 to 4) -/
example : (run { exA with sendOk := fun k => decide (k = 0 ∨ 5 ≤ k) } (boot Node.exMem exInfo)
      (exOpened ++ List.replicate 4 (.enqueue 5 1 [1]) ++
        List.replicate 9 (.putc 7) ++ [.retry, .process 100 .active .none, .retry])).map
      (fun s => ((exFrames s).length, (pendingOf s.q).length, s.tnl.tmp)) =
    some (1, 4, [7, 7, 7, 7, 7, 7, 7, 7]) := by decide +kernel

end Stack
end LiCan
