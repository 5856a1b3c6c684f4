import Verif.Lemmas.NodeGood
/-! # The transmission loop -/
namespace LiCan
open Spec
namespace Node

/-- transmissions for the given positions of the send register, in order -/
def sendAll (env : Env) : List Nat → Node × List Byte → Node × List Byte
  | [], r => r
  | p :: ps, r => sendAll env ps (sendOne env r.1 (p / 4) (p % 4) r.2)

/-- The loop is about to hang: beyond the recorded end an unset position precedes a set one. -/
def Stuck (s : SendSt) : Prop :=
  ∃ p q, p < q ∧ s.node.tx.last < s.cur + p ∧ s.send.getLsbD p = false ∧ s.send.getLsbD q = true

theorem sendOne_tx (env : Env) (n : Node) (tp obj : Nat) (buf : List Byte) :
    (sendOne env n tp obj buf).1.tx = n.tx := by
  obtain ⟨q, l, k, u, h⟩ := sendOne_eq env n tp obj buf; rw [h]

theorem shift_bit (x : BitVec 32) (p : Nat) : (x >>> 1).getLsbD p = x.getLsbD (p + 1) := by
  rw [BitVec.getLsbD_ushiftRight, Nat.add_comm]

theorem ne_zero_of_bit {x : BitVec 32} {p : Nat} (h : x.getLsbD p = true) : x ≠ 0 := by
  rintro rfl; simp at h

theorem exists_bit {x : BitVec 32} (h : x ≠ 0) : ∃ p, x.getLsbD p = true := by
  by_cases e : ∃ p, x.getLsbD p = true
  · exact e
  · exfalso; apply h
    apply BitVec.eq_of_getLsbD_eq
    intro i _
    have := fun hh => e ⟨i, hh⟩
    simpa using this

theorem sendRun_stuck (env : Env) (k : Nat) (s : SendSt) (h : Stuck s) : sendRun env k s = none := by
  induction k generalizing s with
  | zero =>
    obtain ⟨p, q, _, _, _, hq⟩ := h
    simp only [sendRun, ne_zero_of_bit hq, if_false]
  | succ k ih =>
    obtain ⟨p, q, hpq, hl, hp, hq⟩ := h
    simp only [sendRun, sendStep, ne_zero_of_bit hq, if_false]
    by_cases h1 : s.cur ≤ s.node.tx.last ∧ s.send.getLsbD 0 = false
    · rw [if_pos h1]
      refine ih _ ⟨p - 1, q - 1, ?_⟩
      have : p ≠ 0 := by rintro rfl; omega
      simp only [shift_bit, show p - 1 + 1 = p by omega, show q - 1 + 1 = q by omega]
      exact ⟨by omega, by omega, hp, hq⟩
    · rw [if_neg h1]
      by_cases h0 : s.send.getLsbD 0 = true
      · rw [if_pos h0]
        have : p ≠ 0 := by rintro rfl; rw [h0] at hp; cases hp
        refine ih _ ⟨p - 1, q - 1, ?_⟩
        simp only [shift_bit, show p - 1 + 1 = p by omega, show q - 1 + 1 = q by omega, sendOne_tx]
        exact ⟨by omega, by omega, hp, hq⟩
      · rw [if_neg h0]
        exact ih s ⟨p, q, hpq, hl, hp, hq⟩

/-- set positions below `k`, counted from `cur` -/
def positions (x : BitVec 32) (k cur : Nat) : List Nat :=
  ((List.range k).filter fun p => x.getLsbD p).map (cur + ·)

theorem positions_succ (x : BitVec 32) (k cur : Nat) :
    positions x (k + 1) cur =
      (if x.getLsbD 0 then [cur] else []) ++ positions (x >>> 1) k (cur + 1) := by
  unfold positions
  rw [List.range_succ_eq_map, List.filter_cons]
  have : ((List.map Nat.succ (List.range k)).filter fun p => x.getLsbD p).map (cur + ·) =
      ((List.range k).filter fun p => (x >>> 1).getLsbD p).map (cur + 1 + ·) := by
    rw [List.filter_map, List.map_map]
    have e1 : ((fun p => x.getLsbD p) ∘ Nat.succ) = fun p => (x >>> 1).getLsbD p := by
      funext p; simp only [Function.comp, shift_bit]
    have e2 : ((fun x => cur + x) ∘ Nat.succ) = fun x => cur + 1 + x := by
      funext p; simp; omega
    rw [e1, e2]
  split
  · simp [this]
  · simpa using this

theorem sendRun_done (env : Env) (k : Nat) (s : SendSt) (h : ¬ Stuck s)
    (hk : ∀ p, k ≤ p → s.send.getLsbD p = false) (j : Nat) (hj : k ≤ j) :
    sendRun env j s = some (sendAll env (positions s.send k s.cur) (s.node, s.buf)).1 := by
  induction k generalizing s j with
  | zero =>
    have hz : s.send = 0 := by
      apply BitVec.eq_of_getLsbD_eq
      intro i _; simp [hk i (Nat.zero_le _)]
    cases j <;> simp [sendRun, sendStep, hz, positions, sendAll]
  | succ k ih =>
    by_cases hz : s.send = 0
    · have : positions s.send (k + 1) s.cur = [] := by
        simp [positions, hz]
      rw [this]
      cases j <;> simp [sendRun, sendStep, hz, sendAll]
    · obtain ⟨j', rfl⟩ : ∃ j', j = j' + 1 := ⟨j - 1, by omega⟩
      obtain ⟨q, hq⟩ := exists_bit hz
      simp only [sendRun, sendStep, hz, if_false, positions_succ]
      cases h0 : s.send.getLsbD 0 with
      | false =>
        have hcl : s.cur ≤ s.node.tx.last := by
          by_cases hc : s.cur ≤ s.node.tx.last
          · exact hc
          · exfalso; apply h
            refine ⟨0, q, ?_, by omega, h0, hq⟩
            rcases Nat.eq_zero_or_pos q with rfl | hp
            · rw [h0] at hq; cases hq
            · exact hp
        rw [if_pos ⟨hcl, rfl⟩]
        simp only [Bool.false_eq_true, if_false, List.nil_append]
        refine ih { s with cur := s.cur + 1, send := s.send >>> 1 } ?_ ?_ _ (by omega)
        · rintro ⟨p, q', a, b, c, d⟩
          simp only [shift_bit] at b c d
          exact h ⟨p + 1, q' + 1, by omega, by omega, c, d⟩
        · intro p hp; simp only [shift_bit]; exact hk (p + 1) (by omega)
      | true =>
        rw [if_neg (by simp)]
        simp only [if_true, List.cons_append, List.nil_append, sendAll]
        refine ih { send := s.send >>> 1, cur := s.cur + 1
                    buf := (sendOne env s.node (s.cur / 4) (s.cur % 4) s.buf).2
                    node := (sendOne env s.node (s.cur / 4) (s.cur % 4) s.buf).1 } ?_ ?_ _ (by omega)
        · rintro ⟨p, q', a, b, c, d⟩
          simp only [shift_bit, sendOne_tx] at b c d
          exact h ⟨p + 1, q' + 1, by omega, by omega, c, d⟩
        · intro p hp; simp only [shift_bit]; exact hk (p + 1) (by omega)

/-- 32 steps are enough: the loop either stops within them or never. -/
theorem sendRun_stable (env : Env) (s : SendSt) (j : Nat) (hj : 32 ≤ j) :
    sendRun env j s = sendRun env 32 s := by
  by_cases h : Stuck s
  · rw [sendRun_stuck env _ s h, sendRun_stuck env _ s h]
  · have hb : ∀ p, 32 ≤ p → s.send.getLsbD p = false := fun p hp => BitVec.getLsbD_of_ge _ _ hp
    rw [sendRun_done env 32 s h hb j hj, sendRun_done env 32 s h hb 32 (Nat.le_refl _)]

/-- no hanging when all set positions are within the recorded end -/
theorem not_stuck {s : SendSt} (h : ∀ p, s.send.getLsbD p = true → s.cur + p ≤ s.node.tx.last) :
    ¬ Stuck s := by
  rintro ⟨p, q, a, b, _, d⟩
  have := h q d; omega

theorem Good.process {env : Env} {n : Node} {t : Table} (h : Sim env n t) :
    sendProcessData env n =
      some (sendAll env ((List.range 32).filter fun p => n.tx.reg.getLsbD p) (n, env.garbage)).1 := by
  have hns : ¬ Stuck ⟨n.tx.reg, 0, env.garbage, n⟩ := by
    apply not_stuck
    intro p hp
    simp only [h.bits] at hp
    obtain ⟨m, hm, _, ho⟩ := hp
    have := (h.row _ m hm).last trivial _ ho
    simp only; omega
  unfold sendProcessData
  rw [sendRun_done env 32 _ hns (fun p hp => BitVec.getLsbD_of_ge _ _ hp) 32 (Nat.le_refl _)]
  simp [positions]

/-- positions of the send register for row `i` -/
def rowPos (l : List Mod) (i : Nat) : List Nat :=
  match l[i]? with
  | some m => if m.on then (List.range m.txObj).map (4 * i + ·) else []
  | none => []

/-- the part of a row the transmission depends on -/
structure RowSent (n : Node) (i : Nat) (m : Mod) : Prop where
  tx4   : m.txObj ≤ 4
  txDlc : (n.rows i).txDlc = m.txDlc
  tx    : (n.rows i).tx = m.tx
  conv  : ∀ o < m.txObj, (n.rows i).txMainSync o = m.conv o
  id    : ∀ o < m.txObj, n.tx.id i o = syncTxId m.nr o
  dlc   : ∀ o < m.txObj, n.tx.dlc i o = m.txDlc o

theorem RowOk.sent {n : Node} {i : Nat} {m : Mod} (h : RowOk Q n i m) : RowSent n i m :=
  ⟨h.tx4, h.txDlc, h.tx, h.conv, h.id, h.dlc⟩

/-- the part of the simulation the transmission depends on -/
structure Shows (env : Env) (n : Node) (t : Table) : Prop where
  len  : t.mods.length ≤ env.maxMod
  row  : ∀ i m, t.mods[i]? = some m → RowSent n i m
  bits : ∀ p, n.tx.reg.getLsbD p = true ↔ ∃ m, t.mods[p / 4]? = some m ∧ m.on = true ∧ p % 4 < m.txObj

theorem SimQ.shows {env : Env} {n : Node} {t : Table} (h : SimQ Q env n t) : Shows env n t :=
  ⟨h.len, fun i m hm => (h.row i m hm).sent, h.bits⟩

/-- positions of the objects to be sent, module by module -/
theorem Shows.positions {env : Env} {n : Node} {t : Table} (h : Shows env n t) (h8 : env.maxMod ≤ 8) :
    ((List.range 32).filter fun p => n.tx.reg.getLsbD p) =
      (List.range t.mods.length).flatMap (rowPos t.mods) := by
  unfold rowPos
  have hlen : t.mods.length ≤ 8 := Nat.le_trans h.len h8
  have hall : ∀ k, ((List.range (4 * k)).filter fun p => n.tx.reg.getLsbD p) =
      (List.range k).flatMap fun i =>
        match t.mods[i]? with
        | some m => if m.on then (List.range m.txObj).map (4 * i + ·) else []
        | none => [] := by
    intro k
    induction k with
    | zero => rfl
    | succ k ih =>
      rw [List.range_succ, List.flatMap_append, ← ih]
      have e : List.range (4 * (k + 1)) = List.range (4 * k) ++ (List.range 4).map (4 * k + ·) := by
        rw [show 4 * (k + 1) = 4 * k + 4 by omega, List.range_add]
      rw [e, List.filter_append]
      congr 1
      simp only [List.flatMap_cons, List.flatMap_nil, List.append_nil]
      have hb : ∀ o < 4, n.tx.reg.getLsbD (4 * k + o) =
          match t.mods[k]? with
          | some m => m.on && decide (o < m.txObj)
          | none => false := by
        intro o ho
        rw [Bool.eq_iff_iff, h.bits, show (4 * k + o) / 4 = k by omega, show (4 * k + o) % 4 = o by omega]
        cases t.mods[k]? <;> simp
      rw [List.filter_map]
      cases hm : t.mods[k]? with
      | none =>
        simp only [hm] at hb
        have : (List.range 4).filter ((fun p => n.tx.reg.getLsbD p) ∘ fun x => 4 * k + x) = [] := by
          rw [List.filter_eq_nil_iff]
          intro o ho; simp at ho; simp [hb o ho]
        rw [this]; rfl
      | some m =>
        simp only [hm] at hb
        have h4 := (h.row k m hm).tx4
        cases hon : m.on with
        | false =>
          have : (List.range 4).filter ((fun p => n.tx.reg.getLsbD p) ∘ fun x => 4 * k + x) = [] := by
            rw [List.filter_eq_nil_iff]
            intro o ho; simp at ho; simp [hb o ho, hon]
          rw [this]; simp [hon]
        | true =>
          have : (List.range 4).filter ((fun p => n.tx.reg.getLsbD p) ∘ fun x => 4 * k + x) =
              List.range m.txObj := by
            have e : (List.range 4).filter ((fun p => n.tx.reg.getLsbD p) ∘ fun x => 4 * k + x) =
                (List.range 4).filter fun o => decide (o < m.txObj) := by
              apply List.filter_congr
              intro o ho; simp at ho; simp [hb o ho, hon]
            rw [e]
            obtain ⟨a, ha⟩ : ∃ a, a = m.txObj := ⟨_, rfl⟩
            rw [← ha] at h4 ⊢
            have : a = 0 ∨ a = 1 ∨ a = 2 ∨ a = 3 ∨ a = 4 := by omega
            rcases this with rfl | rfl | rfl | rfl | rfl <;> rfl
          rw [this]; simp [hon]
  have h8' := hall 8
  rw [show 4 * 8 = 32 from rfl] at h8'
  rw [h8']
  rw [show (8 : Nat) = t.mods.length + (8 - t.mods.length) by omega, List.range_add, List.flatMap_append]
  have : ((List.range (8 - t.mods.length)).map (t.mods.length + ·)).flatMap (fun i =>
        match t.mods[i]? with
        | some m => if m.on then (List.range m.txObj).map (4 * i + ·) else []
        | none => []) = [] := by
    rw [List.flatMap_eq_nil_iff]
    intro i hi
    simp only [List.mem_map, List.mem_range] at hi
    obtain ⟨a, _, rfl⟩ := hi
    rw [List.getElem?_eq_none (by omega)]
  rw [this, List.append_nil]

/-- A transmission of an object that can be converted: exactly one frame. -/
theorem sendOne_frame (env : Env) (n : Node) (tp obj k : Nat) (buf : List Byte)
    (h1 : (n.rows tp).tx obj ≠ 0) (h2 : (n.rows tp).txMainSync obj = .app k)
    (h3 : (env.txConv k (n.mem ((n.rows tp).tx obj)) ((n.rows tp).txDlc obj) buf).2 = E.ok) :
    ∃ q k', (sendOne env n tp obj buf).1 =
      { n with errq := q, sendN := k'
               log := .frame ⟨n.tx.id tp obj, n.tx.dlc tp obj,
                 (env.txConv k (n.mem ((n.rows tp).tx obj)) ((n.rows tp).txDlc obj) buf).1.take
                   (n.tx.dlc tp obj)⟩ (env.sendOk n.sendN) :: n.log } := by
  unfold sendOne
  simp only
  rw [if_neg (by simp [h1, h2])]
  simp only [h2, callTx, h3, if_true, send]
  obtain ⟨q, hq⟩ := report_eq env
    { n with log := .frame ⟨n.tx.id tp obj, n.tx.dlc tp obj,
                (env.txConv k (n.mem ((n.rows tp).tx obj)) ((n.rows tp).txDlc obj) buf).1.take
                   (n.tx.dlc tp obj)⟩ (env.sendOk n.sendN) :: n.log
             sendN := n.sendN + 1 } (if env.sendOk n.sendN = true then E.ok else E.msgSend)
  exact ⟨q, n.sendN + 1, hq⟩

/-- frame number in a log entry -/
def frameOf : Ev → Option Frame
  | .frame f _ => some f
  | _ => none

/-- a list of transmissions that can all be converted produces exactly their frames -/
theorem sendAll_frames (env : Env) (mem : Nat → List Byte) (F : Nat → Frame) (rows : Nat → Row) (tx : TxCtl)
    (l : List Nat)
    (hl : ∀ p ∈ l, (rows (p / 4)).tx (p % 4) ≠ 0 ∧ ∃ k, (rows (p / 4)).txMainSync (p % 4) = .app k ∧
      ∀ buf, (env.txConv k (mem ((rows (p / 4)).tx (p % 4))) ((rows (p / 4)).txDlc (p % 4)) buf).2 = E.ok ∧
        F p = ⟨tx.id (p / 4) (p % 4), tx.dlc (p / 4) (p % 4),
          (env.txConv k (mem ((rows (p / 4)).tx (p % 4))) ((rows (p / 4)).txDlc (p % 4)) buf).1.take
            (tx.dlc (p / 4) (p % 4))⟩) :
    ∀ (n : Node) (buf : List Byte), n.rows = rows → n.tx = tx → n.mem = mem →
    ∃ evs : List Ev, (sendAll env l (n, buf)).1.log = evs.reverse ++ n.log ∧ evs.map frameOf = l.map (some ∘ F) ∧
      (sendAll env l (n, buf)).1.ub = n.ub := by
  induction l with
  | nil => intro n buf _ _ _; exact ⟨[], rfl, rfl, rfl⟩
  | cons p l ih =>
    intro n buf hr ht hm
    obtain ⟨g1, k, g2, g3⟩ := hl p (by simp)
    have hf := sendOne_frame env n (p / 4) (p % 4) k buf (by rw [hr]; exact g1) (by rw [hr]; exact g2)
      (by rw [hr, hm]; exact (g3 buf).1)
    obtain ⟨q, k', hf⟩ := hf
    obtain ⟨evs, e1, e2, e3⟩ := ih (fun p hp => hl p (by simp [hp]))
      (sendOne env n (p / 4) (p % 4) buf).1 (sendOne env n (p / 4) (p % 4) buf).2
      (by rw [hf]; exact hr) (by rw [hf]; exact ht) (by rw [hf]; exact hm)
    refine ⟨.frame (F p) (env.sendOk n.sendN) :: evs, ?_, ?_, ?_⟩
    · simp only [sendAll]
      rw [e1, hf]
      simp only [List.reverse_cons, List.append_assoc, List.cons_append, List.nil_append]
      rw [(g3 buf).2, hr, ht, hm]
    · simp [frameOf, e2]
    · simp only [sendAll]
      rw [e3, hf]

end Node
end LiCan
