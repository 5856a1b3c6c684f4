import Verif.Model.UlIrq
/-! # C142: an upload sends the data of the block, although messages of the master arrive while it runs -/
namespace LiCan
namespace UlIrq

/-! ## Specification -/
namespace Spec

/-- seven bytes of the data from `p` on, filled up with zeros -/
def segment (data : List Byte) (p : Nat) : List Byte := (List.range 7).map fun k => data.getD (p + k) 0

/-- the first `m` messages of module `nr` for the data from `b` on -/
def segments (data : List Byte) (nr b m : Nat) : List UlFrame := (List.range m).map fun i => .data nr (segment data (b + 7 * i))

/-- the block end: all bytes and `o` objects -/
def blockEnd (data : List Byte) (nr o : Nat) : UlFrame := .fin nr (data.length / 256) (data.length % 256) (o / 256) (o % 256)

/-- as many messages as the data from `b` on need, at least one -/
def Enough (data : List Byte) (b m : Nat) : Prop := 1 ≤ m ∧ data.length ≤ b + 7 * m ∧ (m = 1 ∨ b + 7 * (m - 1) < data.length)

/-- a message that has nothing to do with the data: a stop, a start request that is refused or names the same module -/
def Harmless (w : UlIrq) : Evt → Prop
  | .main _ => True
  | .msg .stop => True
  | .msg (.start2 nr) => w.busy = true ∨ nr = w.nr
  | _ => False

/-- no download data between the test of the counter and the reading of the byte -/
def NotInside (w : UlIrq) : Evt → Prop
  | .msg .data => ∀ seg, w.pc ≠ .read seg
  | _ => True

/-- a condition at every event of a history -/
def Always (P : UlIrq → Evt → Prop) : UlIrq → List Evt → Prop
  | _, [] => True
  | w, e :: es => P w e ∧ Always P (w.step e) es

end Spec

open Spec

theorem segments_succ (data : List Byte) (nr b m : Nat) :
    segments data nr b (m + 1) = segments data nr b m ++ [.data nr (segment data (b + 7 * m))] := by
  simp [segments, List.range_succ]

theorem segment_take_succ (data : List Byte) (p n : Nat) (hn : n < 7) :
    (segment data p).take (n + 1) = (segment data p).take n ++ [data.getD (p + n) 0] := by
  rw [List.take_add_one]
  congr 1
  simp [segment, hn]

theorem segment_length (data : List Byte) (p : Nat) : (segment data p).length = 7 := by simp [segment]

theorem getD_out (data : List Byte) (i : Nat) (h : data.length ≤ i) : data.getD i 0 = 0 := by
  simp [List.getD, List.getElem?_eq_none_iff.mpr h]

theorem getD_in (data : List Byte) (i : Nat) (h : i < data.length) : data[i]? = some (data.getD i 0) := by
  simp [List.getD, List.getElem?_eq_getElem h]

/-- The invariant: the frames `pre` were sent before; since then `m` messages of module `nr` with the data from `b` on were sent and counted, the
counter of the objects having started at `c`. -/
structure Inv (pre : List UlFrame) (nr b c m : Nat) (w : UlIrq) : Prop where
  len : w.data.length < 65536
  num : w.nr = nr
  base : b ≤ w.data.length
  prev : 0 < m → b + 7 * (m - 1) < w.data.length ∨ m = 1
  at_ : match w.pc with
    | .fill seg => b + 7 * m ≤ w.data.length ∧ seg = (segment w.data (b + 7 * m)).take seg.length ∧ seg.length ≤ 7 ∧
        w.bytes = min w.data.length (b + 7 * m + seg.length) ∧ w.objs = c + m ∧ w.out = pre ++ segments w.data nr b m ∧ (0 < m → b + 7 * m < w.data.length)
    | .read seg => b + 7 * m + seg.length < w.data.length ∧ seg = (segment w.data (b + 7 * m)).take seg.length ∧ seg.length < 7 ∧
        w.bytes = b + 7 * m + seg.length ∧ w.objs = c + m ∧ w.out = pre ++ segments w.data nr b m
    | .inc seg => ∃ n, n < 7 ∧ b + 7 * m + n < w.data.length ∧ seg = (segment w.data (b + 7 * m)).take (n + 1) ∧ w.bytes = b + 7 * m + n ∧
        w.objs = c + m ∧ w.out = pre ++ segments w.data nr b m
    | .incW seg v => ∃ n, n < 7 ∧ b + 7 * m + n < w.data.length ∧ seg = (segment w.data (b + 7 * m)).take (n + 1) ∧ v = b + 7 * m + n ∧
        w.objs = c + m ∧ w.out = pre ++ segments w.data nr b m
    | .send seg => seg = segment w.data (b + 7 * m) ∧ w.bytes = min w.data.length (b + 7 * m + 7) ∧ b + 7 * m ≤ w.data.length ∧
        w.objs = c + m ∧ w.out = pre ++ segments w.data nr b m ∧ (0 < m → b + 7 * m < w.data.length)
    | .cnt => w.bytes = min w.data.length (b + 7 * m + 7) ∧ w.objs = c + m ∧ w.out = pre ++ segments w.data nr b (m + 1) ∧
        (0 < m → b + 7 * m < w.data.length)
    | .cntW v => w.bytes = min w.data.length (b + 7 * m + 7) ∧ v = c + m ∧ w.out = pre ++ segments w.data nr b (m + 1) ∧
        (0 < m → b + 7 * m < w.data.length)
    | .more => w.bytes = min w.data.length (b + 7 * m) ∧ w.objs = c + m ∧ w.out = pre ++ segments w.data nr b m ∧ 0 < m
    | .endNr => w.bytes = w.data.length ∧ w.objs = c + m ∧ w.out = pre ++ segments w.data nr b m ∧ Enough w.data b m
    | .end1 n => w.bytes = w.data.length ∧ w.objs = c + m ∧ w.out = pre ++ segments w.data nr b m ∧ Enough w.data b m ∧ n = nr
    | .end2 n b1 => w.bytes = w.data.length ∧ w.objs = c + m ∧ w.out = pre ++ segments w.data nr b m ∧ Enough w.data b m ∧ n = nr ∧
        b1 = w.data.length / 256
    | .end3 n b1 b0 => w.bytes = w.data.length ∧ w.objs = c + m ∧ w.out = pre ++ segments w.data nr b m ∧ Enough w.data b m ∧ n = nr ∧
        b1 = w.data.length / 256 ∧ b0 = w.data.length % 256
    | .end4 n b1 b0 o1 => w.bytes = w.data.length ∧ w.objs = c + m ∧ w.out = pre ++ segments w.data nr b m ∧ Enough w.data b m ∧ n = nr ∧
        b1 = w.data.length / 256 ∧ b0 = w.data.length % 256 ∧ o1 = (c + m) / 256
    | .done => w.out = pre ++ segments w.data nr b m ++ [blockEnd w.data nr (c + m)] ∧ Enough w.data b m
    | .oob => False

theorem inv_main {pre : List UlFrame} {nr b c m : Nat} {w : UlIrq} (h : Inv pre nr b c m w) (hc : c ≤ 50000) (go : Bool) :
    ∃ m', Inv pre nr b c m' (w.main go) := by
  obtain ⟨data, bytes, objs, nr', busy, pc, out⟩ := w
  obtain ⟨h1, h2, h3, h4, h5⟩ := h
  simp only at h1 h2 h3 h4
  subst h2
  cases pc with
  | fill seg =>
    obtain ⟨a1, a2, a3, a4, a5, a6, a7⟩ := h5
    simp only at a1 a2 a3 a4 a5 a6 a7
    simp only [main]
    split
    · rename_i h7
      refine ⟨m, h1, rfl, h3, h4, ?_, ?_, a1, a5, a6, a7⟩
      · rw [h7, List.take_of_length_le (by rw [segment_length]; omega)] at a2; exact a2
      · rw [a4, h7]
    · rename_i h7
      split
      · rename_i hb
        rw [a4] at hb
        exact ⟨m, h1, rfl, h3, h4, by show _ < data.length; omega, a2, by show seg.length < 7; omega, by show bytes = _; rw [a4]; omega, a5, a6⟩
      · rename_i hb
        rw [a4] at hb
        refine ⟨m, h1, rfl, h3, h4, a1, ?_, ?_, ?_, a5, a6, a7⟩
        · rw [List.length_append, List.length_singleton, segment_take_succ _ _ _ (by omega), ← a2]
          rw [getD_out data (b + 7 * m + seg.length) (by omega)]
        · rw [List.length_append, List.length_singleton]; omega
        · show bytes = _
          rw [List.length_append, List.length_singleton, a4]
          show min data.length _ = min data.length _
          omega
  | read seg =>
    obtain ⟨a1, a2, a3, a4, a5, a6⟩ := h5
    simp only at a1 a2 a3 a4 a5 a6
    have hx : data[bytes]? = some (data.getD (b + 7 * m + seg.length) 0) := by
      rw [a4]; exact getD_in _ _ a1
    simp only [main, hx]
    refine ⟨m, h1, rfl, h3, h4, seg.length, a3, a1, ?_, a4, a5, a6⟩
    rw [segment_take_succ _ _ _ a3, ← a2]
  | inc seg =>
    obtain ⟨n, a1, a2, a3, a4, a5, a6⟩ := h5
    exact ⟨m, h1, rfl, h3, h4, n, a1, a2, a3, a4, a5, a6⟩
  | incW seg v =>
    obtain ⟨n, a1, a2, a3, a4, a5, a6⟩ := h5
    simp only at a1 a2 a3 a4 a5 a6
    have hl : seg.length = n + 1 := by rw [a3, List.length_take, segment_length]; omega
    refine ⟨m, h1, rfl, h3, h4, ?_, ?_, ?_, ?_, a5, a6, ?_⟩
    · show _ ≤ data.length; omega
    · rw [hl]; exact a3
    · omega
    · show u16 (v + 1) = _
      rw [hl, a4]
      show u16 _ = min data.length _
      unfold u16; omega
    · intro _; show _ < data.length; omega
  | send seg =>
    obtain ⟨a1, a2, a3, a4, a5, a6⟩ := h5
    simp only at a1 a2 a3 a4 a5 a6
    cases go with
    | true =>
      refine ⟨m, h1, rfl, h3, h4, a2, a4, ?_, a6⟩
      show out ++ [.data nr' seg] = pre ++ segments data nr' b (m + 1)
      simp [a5, segments_succ, a1]
    | false => exact ⟨m, h1, rfl, h3, h4, a1, a2, a3, a4, a5, a6⟩
  | cnt =>
    obtain ⟨a1, a2, a3, a4⟩ := h5
    exact ⟨m, h1, rfl, h3, h4, a1, a2, a3, a4⟩
  | cntW v =>
    obtain ⟨a1, a2, a3, a4⟩ := h5
    simp only at a1 a2 a3 a4
    refine ⟨m + 1, h1, rfl, h3, ?_, a1, ?_, a3, by omega⟩
    · intro _
      simp only [Nat.add_sub_cancel]
      by_cases hm : m = 0
      · exact .inr (by omega)
      · exact .inl (a4 (by omega))
    · show u16 (v + 1) = _
      have : m < 10000 := by
        by_cases hm : m = 0
        · omega
        · have := a4 (by omega); omega
      unfold u16; omega
  | more =>
    obtain ⟨a1, a2, a3, a4⟩ := h5
    simp only at a1 a2 a3 a4
    simp only [main]
    split
    · rename_i hb
      rw [a1] at hb
      have hb : b + 7 * m < data.length := by omega
      refine ⟨m, h1, rfl, h3, h4, ?_, ?_, ?_, ?_, a2, a3, fun _ => hb⟩
      · show _ ≤ data.length; omega
      · rfl
      · show 0 ≤ 7; omega
      · show bytes = min data.length (b + 7 * m + 0)
        rw [a1]; rfl
    · rename_i hb
      rw [a1] at hb
      refine ⟨m, h1, rfl, h3, h4, ?_, a2, a3, ?_, ?_, ?_⟩
      · show bytes = data.length
        rw [a1]; omega
      · omega
      · show data.length ≤ _; omega
      · exact (h4 a4).symm
  | endNr =>
    obtain ⟨a1, a2, a3, a4⟩ := h5
    exact ⟨m, h1, rfl, h3, h4, a1, a2, a3, a4, rfl⟩
  | end1 n =>
    obtain ⟨a1, a2, a3, a4, a5⟩ := h5
    simp only at a1 a2
    exact ⟨m, h1, rfl, h3, h4, a1, a2, a3, a4, a5, by show bytes / 256 = data.length / 256; rw [a1]⟩
  | end2 n b1 =>
    obtain ⟨a1, a2, a3, a4, a5, a6⟩ := h5
    simp only at a1 a2
    exact ⟨m, h1, rfl, h3, h4, a1, a2, a3, a4, a5, a6, by show bytes % 256 = data.length % 256; rw [a1]⟩
  | end3 n b1 b0 =>
    obtain ⟨a1, a2, a3, a4, a5, a6, a7⟩ := h5
    simp only at a1 a2
    exact ⟨m, h1, rfl, h3, h4, a1, a2, a3, a4, a5, a6, a7, by show objs / 256 = (c + m) / 256; rw [a2]⟩
  | end4 n b1 b0 o1 =>
    obtain ⟨a1, a2, a3, a4, a5, a6, a7, a8⟩ := h5
    simp only at a1 a2 a3 a4 a5 a6 a7 a8
    refine ⟨m, h1, rfl, h3, h4, ?_, a4⟩
    show out ++ [.fin n b1 b0 o1 (objs % 256)] = _
    rw [a3, a2, a5, a6, a7, a8]; rfl
  | done => exact ⟨m, h1, rfl, h3, h4, h5⟩
  | oob => exact h5.elim

theorem inv_step {pre : List UlFrame} {nr b c m : Nat} {w : UlIrq} (h : Inv pre nr b c m w) (hc : c ≤ 50000) (e : Evt) (he : Harmless w e) :
    ∃ m', Inv pre nr b c m' (w.step e) := by
  cases e with
  | main go => exact inv_main h hc go
  | msg x =>
    cases x with
    | stop => exact ⟨m, h.len, h.num, h.base, h.prev, h.at_⟩
    | start1 n => exact he.elim
    | start2 n =>
      simp only [step, msg]
      split
      · exact ⟨m, h.len, h.num, h.base, h.prev, h.at_⟩
      · rename_i hb
        have hn : n = w.nr := he.resolve_left hb
        subst hn
        exact ⟨m, h.len, h.num, h.base, h.prev, h.at_⟩
    | data => exact he.elim
    | blockEnd => exact he.elim

theorem inv_run {pre : List UlFrame} {nr b c : Nat} (hc : c ≤ 50000) (es : List Evt) : ∀ {m : Nat} {w : UlIrq}, Inv pre nr b c m w →
    Always Harmless w es → ∃ m', Inv pre nr b c m' (w.run es) := by
  induction es with
  | nil => intro m w h _; exact ⟨m, h⟩
  | cons e es ih =>
    intro m w h ha
    obtain ⟨m', h'⟩ := inv_step h hc e ha.1
    exact ih h' ha.2

theorem data_step (w : UlIrq) (e : Evt) : (w.step e).data = w.data := by
  obtain ⟨data, bytes, objs, nr, busy, pc, out⟩ := w
  cases e with
  | main go => cases pc <;> simp only [step, main] <;> (repeat' split) <;> rfl
  | msg m => cases m <;> simp only [step, msg] <;> (repeat' split) <;> rfl

theorem data_run (es : List Evt) : ∀ w : UlIrq, (w.run es).data = w.data := by
  induction es with
  | nil => intro w; rfl
  | cons e es ih => intro w; show ((w.step e).run es).data = _; rw [ih, data_step]

/-- what the invariant says about the frames -/
theorem inv_out {pre : List UlFrame} {nr b c m : Nat} {w : UlIrq} (h : Inv pre nr b c m w) :
    w.pc ≠ .oob ∧ ∃ m, (w.pc ≠ .done → w.out = pre ++ segments w.data nr b m) ∧
      (w.pc = .done → w.out = pre ++ segments w.data nr b m ++ [blockEnd w.data nr (c + m)] ∧ Enough w.data b m) := by
  have h := h.at_
  generalize hp : w.pc = p at *
  cases p with
  | fill seg => exact ⟨nofun, m, fun _ => h.2.2.2.2.2.1, nofun⟩
  | read seg => exact ⟨nofun, m, fun _ => h.2.2.2.2.2, nofun⟩
  | inc seg => obtain ⟨n, _, _, _, _, _, h⟩ := h; exact ⟨nofun, m, fun _ => h, nofun⟩
  | incW seg v => obtain ⟨n, _, _, _, _, _, h⟩ := h; exact ⟨nofun, m, fun _ => h, nofun⟩
  | send seg => exact ⟨nofun, m, fun _ => h.2.2.2.2.1, nofun⟩
  | cnt => exact ⟨nofun, m + 1, fun _ => h.2.2.1, nofun⟩
  | cntW v => exact ⟨nofun, m + 1, fun _ => h.2.2.1, nofun⟩
  | more => exact ⟨nofun, m, fun _ => h.2.2.1, nofun⟩
  | endNr => exact ⟨nofun, m, fun _ => h.2.2.1, nofun⟩
  | end1 n => exact ⟨nofun, m, fun _ => h.2.2.1, nofun⟩
  | end2 n b1 => exact ⟨nofun, m, fun _ => h.2.2.1, nofun⟩
  | end3 n b1 b0 => exact ⟨nofun, m, fun _ => h.2.2.1, nofun⟩
  | end4 n b1 b0 o1 => exact ⟨nofun, m, fun _ => h.2.2.1, nofun⟩
  | done => exact ⟨nofun, m, fun h => absurd rfl h, fun _ => h⟩
  | oob => exact h.elim

theorem inv_start (data : List Byte) (hl : data.length < 65536) (b : Nat) (hb : b ≤ data.length) (nr : Nat) (busy : Bool) :
    Inv [] nr b 0 0 (start data b nr busy) :=
  ⟨hl, rfl, hb, fun h => absurd h (by omega), by show b + 7 * 0 ≤ data.length; omega, rfl, by show 0 ≤ 7; omega,
    by show b = min data.length (b + 7 * 0 + 0); omega, rfl, rfl, fun h => absurd h (by omega)⟩

/-- **C142**, provable part: if the messages that arrive during an upload are stops and start requests that are refused or name the same module,
nothing outside the data is read, the messages sent are those of the data from the counter on, in order, under the module's number, and at the end,
when all the data were sent, the block end announces all bytes and the number of messages.  Missing: other messages, for which all of this fails, see
below; that a stop ends the upload, which it does not, see `C142_stop`. -/
theorem C142_partial (data : List Byte) (hl : data.length < 65536) (b : Nat) (hb : b ≤ data.length) (nr : Nat) (busy : Bool) (es : List Evt)
    (ha : Always Harmless (start data b nr busy) es) :
    let w := (start data b nr busy).run es
    w.pc ≠ .oob ∧ ∃ m, (w.pc ≠ .done → w.out = segments data nr b m) ∧
      (w.pc = .done → w.out = segments data nr b m ++ [blockEnd data nr m] ∧ Enough data b m) := by
  intro w
  obtain ⟨m, h⟩ := inv_run (by omega) es (inv_start data hl b hb nr busy) ha
  have hd : w.data = data := data_run es _
  have := inv_out h
  simpa [hd, w] using this

/-! ## Stops -/

/-- **C142**, the master's stop (termination or end acknowledge) is ignored by a running upload, in any state: with any number of stops at any
moments exactly the same frames are sent as without (as long as no start request comes as well). -/
theorem C142_stop (es : List Evt) (hs : ∀ n, Evt.msg (.start2 n) ∉ es) : ∀ w v : UlIrq, { w with busy := true } = { v with busy := true } →
    { w.run es with busy := true } = { v.run (es.filter fun e => e != .msg .stop) with busy := true } := by
  induction es with
  | nil => intro w v h; exact h
  | cons e es ih =>
    intro w v h
    have hs' : ∀ n, Evt.msg (.start2 n) ∉ es := fun n hn => hs n (by simp [hn])
    have same : { w.step e with busy := true } = { v.step e with busy := true } := by
      obtain ⟨d, by_, ob, nr, bu, pc, out⟩ := w
      obtain ⟨d', by', ob', nr', bu', pc', out'⟩ := v
      simp only [UlIrq.mk.injEq] at h
      obtain ⟨rfl, rfl, rfl, rfl, -, rfl, rfl⟩ := h
      cases e with
      | main go => cases pc <;> simp only [step, main] <;> (repeat' split) <;> rfl
      | msg m =>
        cases m with
        | start2 n => exact absurd (by simp) (hs n)
        | _ => rfl
    by_cases he : e = .msg .stop
    · subst he
      rw [List.filter_cons_of_neg (by simp)]
      exact ih hs' (w.step (.msg .stop)) v h
    · rw [List.filter_cons_of_pos (by simp [he])]
      exact ih hs' (w.step e) (v.step e) same

/-! ## Reading outside the data -/

/-- the counter is inside the data where the byte is read -/
def Inside (w : UlIrq) : Prop := w.pc ≠ .oob ∧ ∀ seg, w.pc = .read seg → w.bytes < w.data.length

theorem inside_step {w : UlIrq} (h : Inside w) (e : Evt) (he : NotInside w e) : Inside (w.step e) := by
  obtain ⟨data, bytes, objs, nr, busy, pc, out⟩ := w
  obtain ⟨h1, h2⟩ := h
  simp only at h1 h2
  cases e with
  | main go =>
    cases pc with
    | fill seg =>
      simp only [step, main]
      split
      · exact ⟨nofun, nofun⟩
      · split
        · rename_i hb; exact ⟨nofun, fun _ _ => hb⟩
        · exact ⟨nofun, nofun⟩
    | read seg =>
      have hb := h2 seg rfl
      simp only [step, main, List.getElem?_eq_getElem hb]
      exact ⟨nofun, nofun⟩
    | send seg => cases go <;> exact ⟨nofun, nofun⟩
    | more => simp only [step, main]; split <;> exact ⟨nofun, nofun⟩
    | oob => exact absurd rfl h1
    | _ => exact ⟨nofun, nofun⟩
  | msg m =>
    cases m with
    | stop => exact ⟨h1, h2⟩
    | start1 n => exact ⟨h1, fun seg hp => Nat.lt_of_le_of_lt (Nat.zero_le _) (h2 seg hp)⟩
    | start2 n => simp only [step, msg]; split <;> exact ⟨h1, h2⟩
    | data => exact ⟨h1, fun seg hp => absurd hp (he seg)⟩
    | blockEnd => exact ⟨h1, fun seg hp => Nat.lt_of_le_of_lt (Nat.zero_le _) (h2 seg hp)⟩

/-- **C142**, memory: whatever messages arrive, no byte outside the caller's data is read unless download data arrive between the test of the counter
and the reading of a byte. -/
theorem C142_safe (es : List Evt) : ∀ w : UlIrq, Inside w → Always NotInside w es → (w.run es).pc ≠ .oob := by
  induction es with
  | nil => intro w h _; exact h.1
  | cons e es ih => intro w h ha; exact ih (w.step e) (inside_step h e ha.1) ha.2

/-- **C142**, the window, in any state: download data at this moment, with at most seven bytes left, and a byte outside the caller's data is read. -/
theorem C142_window_oob (w : UlIrq) (seg : List Byte) (hp : w.pc = .read seg) (hl : w.data.length ≤ w.bytes + 7) (hb : w.bytes + 7 < 65536) :
    (w.run [.msg .data, .main true]).pc = .oob := by
  obtain ⟨data, bytes, objs, nr, busy, pc, out⟩ := w
  simp only at hp hl hb
  subst hp
  have : data[u16 (bytes + 7)]? = none := by
    rw [List.getElem?_eq_none_iff]; unfold u16; omega
  simp [run, step, msg, main, this]

/-! ## Skipped, repeated and foreign data -/

/-- **C142**, download data for the node while a message of an upload waits: seven bytes of the block are never sent.  Afterwards, as long as only
harmless messages arrive, the messages carry the data from seven bytes later on; the block end announces all bytes and one message more than sent. -/
theorem C142_skip (w : UlIrq) (seg : List Byte) (hp : w.pc = .send seg) (hl : w.data.length < 65536) (hb : w.bytes + 7 < w.data.length)
    (ho : w.objs + 2 ≤ 50000) (es : List Evt)
    (ha : Always Harmless (w.run [.msg .data, .main true, .main true, .main true, .main true]) es) :
    let v := (w.run [.msg .data, .main true, .main true, .main true, .main true]).run es
    ∃ m, (v.pc ≠ .done → v.out = w.out ++ [.data w.nr seg] ++ segments w.data w.nr (w.bytes + 7) m) ∧
      (v.pc = .done → v.out = w.out ++ [.data w.nr seg] ++ segments w.data w.nr (w.bytes + 7) m ++ [blockEnd w.data w.nr (w.objs + 2 + m)] ∧
        Enough w.data (w.bytes + 7) m) := by
  obtain ⟨data, bytes, objs, nr, busy, pc, out⟩ := w
  simp only at hp hl hb ho
  subst hp
  have e : run ⟨data, bytes, objs, nr, busy, .send seg, out⟩ [.msg .data, .main true, .main true, .main true, .main true] =
      ⟨data, bytes + 7, objs + 2, nr, busy, .fill [], out ++ [.data nr seg]⟩ := by
    have h1 : u16 (bytes + 7) = bytes + 7 := by unfold u16; omega
    have h2 : u16 (u16 (objs + 1) + 1) = objs + 2 := by unfold u16; omega
    simp [run, step, msg, main, h1, h2, hb]
  intro v
  rw [e] at ha
  have hv : v = run ⟨data, bytes + 7, objs + 2, nr, busy, .fill [], out ++ [.data nr seg]⟩ es := by show run (run _ _) es = _; rw [e]
  obtain ⟨m, h⟩ := inv_run (pre := out ++ [.data nr seg]) (nr := nr) (b := bytes + 7) (c := objs + 2) (by omega) es (m := 0)
    (w := ⟨data, bytes + 7, objs + 2, nr, busy, .fill [], out ++ [.data nr seg]⟩)
    ⟨hl, rfl, by show _ ≤ data.length; omega, fun h => absurd h (by omega), by show _ ≤ data.length; omega, rfl, by show 0 ≤ 7; omega,
      by show bytes + 7 = min data.length (bytes + 7 + 7 * 0 + 0); omega, rfl, by simp [segments], fun h => absurd h (by omega)⟩ ha
  obtain ⟨-, m', h1, h2⟩ := inv_out h
  have hd := data_run es ⟨data, bytes + 7, objs + 2, nr, busy, .fill [], out ++ [.data nr seg]⟩
  rw [hv]
  rw [hd] at h1 h2
  exact ⟨m', h1, h2⟩

/-- **C142**, the first part of an upload start request, to whatever module `n` of the node, while a message waits: the message is sent by module `n`,
followed by the whole block from its beginning, also by module `n`; the block end announces all bytes and one message more than the block has. -/
theorem C142_restart (w : UlIrq) (seg : List Byte) (hp : w.pc = .send seg) (hl : w.data.length < 65536) (h0 : 0 < w.data.length) (n : Nat)
    (es : List Evt) (ha : Always Harmless (w.run [.msg (.start1 n), .main true, .main true, .main true, .main true]) es) :
    let v := (w.run [.msg (.start1 n), .main true, .main true, .main true, .main true]).run es
    ∃ m, (v.pc ≠ .done → v.out = w.out ++ [.data n seg] ++ segments w.data n 0 m) ∧
      (v.pc = .done → v.out = w.out ++ [.data n seg] ++ segments w.data n 0 m ++ [blockEnd w.data n (1 + m)] ∧ Enough w.data 0 m) := by
  obtain ⟨data, bytes, objs, nr, busy, pc, out⟩ := w
  simp only at hp hl h0
  subst hp
  have e : run ⟨data, bytes, objs, nr, busy, .send seg, out⟩ [.msg (.start1 n), .main true, .main true, .main true, .main true] =
      ⟨data, 0, 1, n, busy, .fill [], out ++ [.data n seg]⟩ := by
    simp [run, step, msg, main, h0, u16]
  intro v
  rw [e] at ha
  have hv : v = run ⟨data, 0, 1, n, busy, .fill [], out ++ [.data n seg]⟩ es := by show run (run _ _) es = _; rw [e]
  obtain ⟨m, h⟩ := inv_run (pre := out ++ [.data n seg]) (nr := n) (b := 0) (c := 1) (by omega) es (m := 0)
    (w := ⟨data, 0, 1, n, busy, .fill [], out ++ [.data n seg]⟩)
    ⟨hl, rfl, Nat.zero_le _, fun h => absurd h (by omega), by show _ ≤ data.length; omega, rfl, by show 0 ≤ 7; omega,
      by show 0 = min data.length (0 + 7 * 0 + 0); omega, rfl, by simp [segments], fun h => absurd h (by omega)⟩ ha
  obtain ⟨-, m', h1, h2⟩ := inv_out h
  have hd := data_run es ⟨data, 0, 1, n, busy, .fill [], out ++ [.data n seg]⟩
  rw [hv]
  rw [hd] at h1 h2
  exact ⟨m', h1, h2⟩

/-- **C142**, the lost update: whatever message arrives between the reading and the writing of the counter, its effect on the counter is lost. -/
theorem C142_lost (w : UlIrq) (seg : List Byte) (v : Nat) (hp : w.pc = .incW seg v) (m : Msg) :
    (w.run [.msg m, .main true]).bytes = u16 (v + 1) ∧ (w.run [.msg m, .main true]).pc = .fill seg := by
  obtain ⟨data, bytes, objs, nr, busy, pc, out⟩ := w
  simp only at hp
  subst hp
  cases m <;> simp only [run, List.foldl, step, msg] <;> (repeat' split) <;> exact ⟨rfl, rfl⟩

/-! ## The steps without interrupts are the upload of the whole stack -/

theorem fill_steps (data : List Byte) (hl : data.length < 65536) (objs nr : Nat) (busy : Bool) (out : List UlFrame) (b : Nat) (k : Nat) :
    ∀ (seg : List Byte) (bytes : Nat), seg.length + k = 7 → bytes = (if data.length < b then b else min data.length (b + seg.length)) →
      seg = (segment data b).take seg.length →
      ∃ n, run ⟨data, bytes, objs, nr, busy, .fill seg, out⟩ (List.replicate n (.main true)) =
        ⟨data, (Stack.ulFill data b).2, objs, nr, busy, .send (Stack.ulFill data b).1, out⟩ := by
  induction k with
  | zero =>
    intro seg bytes hk hb hs
    have h7 : seg.length = 7 := by omega
    refine ⟨1, ?_⟩
    have e : seg = (Stack.ulFill data b).1 := by
      rw [hs, h7, List.take_of_length_le (by rw [segment_length]; omega)]; rfl
    rw [h7] at hb
    simp only [List.replicate, run, List.foldl, step, main, h7, if_true, hb, Stack.ulFill]
    rw [e]; rfl
  | succ k ih =>
    intro seg bytes hk hb hs
    have h7 : ¬ seg.length = 7 := by omega
    by_cases hlt : bytes < data.length
    · have hb2 : bytes = b + seg.length := by
        split at hb <;> omega
      obtain ⟨n, hn⟩ := ih (seg ++ [data.getD (b + seg.length) 0]) (u16 (bytes + 1)) (by simp; omega)
        (by rw [List.length_append, List.length_singleton]; unfold u16; split at hb <;> rename_i hc
            · omega
            · rw [if_neg hc]; omega)
        (by rw [List.length_append, List.length_singleton, segment_take_succ _ _ _ (by omega), ← hs])
      refine ⟨4 + n, ?_⟩
      have hx : data[bytes]? = some (data.getD (b + seg.length) 0) := by
        rw [hb2]; exact getD_in _ _ (by omega)
      rw [← List.replicate_append_replicate]
      unfold run at hn ⊢
      rw [List.foldl_append]
      simp only [List.replicate, List.foldl, step, main, h7, hlt, hx, if_true, if_false]
      exact hn
    · obtain ⟨n, hn⟩ := ih (seg ++ [0]) bytes (by simp; omega)
        (by rw [List.length_append, List.length_singleton]; split at hb <;> rename_i hc
            · rw [if_pos hc]; exact hb
            · rw [if_neg hc]; omega)
        (by rw [List.length_append, List.length_singleton, segment_take_succ _ _ _ (by omega), ← hs]
            rw [getD_out data (b + seg.length) (by split at hb <;> omega)])
      refine ⟨1 + n, ?_⟩
      rw [← List.replicate_append_replicate]
      unfold run at hn ⊢
      rw [List.foldl_append]
      simp only [List.replicate, List.foldl, step, main, h7, hlt, if_false]
      exact hn

/-- **C142**, without interrupts the steps fill a message exactly as the upload of the whole stack does (`Stack.ulFill`), from any counter; and
sending it, counting it and deciding what follows are the loop of `Stack.ulLoop`: again if the counter is below the length, else the block end with
the counters and the number. -/
theorem C142_steps (data : List Byte) (hl : data.length < 65536) (b objs nr : Nat) (busy : Bool)
    (out : List UlFrame) :
    (∃ n, run ⟨data, b, objs, nr, busy, .fill [], out⟩ (List.replicate n (.main true)) =
      ⟨data, (Stack.ulFill data b).2, objs, nr, busy, .send (Stack.ulFill data b).1, out⟩) ∧
    ∀ seg, run ⟨data, b, objs, nr, busy, .send seg, out⟩ (List.replicate (if b < data.length then 4 else 9) (.main true)) =
      if b < data.length then ⟨data, b, u16 (objs + 1), nr, busy, .fill [], out ++ [.data nr seg]⟩
      else ⟨data, b, u16 (objs + 1), nr, busy, .done,
        out ++ [.data nr seg] ++ [.fin nr (b / 256) (b % 256) (u16 (objs + 1) / 256) (u16 (objs + 1) % 256)]⟩ := by
  refine ⟨fill_steps data hl objs nr busy out b 7 [] b rfl ?_ rfl, fun seg => ?_⟩
  · show b = if data.length < b then b else min data.length (b + 0)
    split <;> omega
  · by_cases h : b < data.length
    · simp [h, List.replicate, run, step, main]
    · simp [h, List.replicate, run, step, main]

/-- the upload with the transfer variables of the whole stack -/
def carry (s : Stack) (data : List Byte) (pc : UlPc) (out : List UlFrame) : UlIrq := ⟨data, s.x.bytes, s.x.objs, s.x.comp.nr, s.x.busy, pc, out⟩

/-- the application's handlers answer with an error code only -/
def Plain (env : AEnv) : Prop := ∀ n c, (env.reply n c).acts = []

theorem callHnd_x (env : AEnv) (h : Plain env) (s : Stack) (k : Hnd) (c : Component) : (s.callHnd env k c).1.x = s.x := by
  unfold Stack.callHnd
  split
  · show (((env.reply _ _).acts).foldl (Stack.act env) _).x = _
    rw [h]; rfl
  · rfl

/-- **C142**, the messages in the receive interrupt do to the counters, the number and the busy flag what the handlers of the whole stack do,
for an application that only answers with error codes: an accepted message is the message of this model, and a refused one is a `stop` (a refused
start request to an idle slave: the start and a `stop`). -/
theorem C142_steps_messages (env : AEnv) (hp : Plain env) (s : Stack) (nr tp : Nat) (src : List Byte) (data : List Byte) (pc : UlPc)
    (out : List UlFrame) :
    let v := fun t : Stack => carry t data pc out
    v s.ulStop = (v s).msg .stop ∧ v (s.dlStart1 src) = v s ∧ v (s.ulStart1 nr src) = (v s).msg (.start1 nr) ∧
    v (s.ulStart2 env nr src).1 = (if s.x.busy = true ∨ (s.ulStart2 env nr src).2 = E.ok then (v s).msg (.start2 nr)
      else ((v s).msg (.start2 nr)).msg .stop) ∧
    v (s.dlStart2 env nr tp src).1 = (if s.x.busy = true ∨ (s.dlStart2 env nr tp src).2 = E.ok then (v s).msg (.start2 nr)
      else ((v s).msg (.start2 nr)).msg .stop) ∧
    v (s.dlData env nr src).1 = (v s).msg (if (s.dlData env nr src).2 = E.ok then .data else .stop) ∧
    v (s.dlBlockEnd env nr src).1 = (v s).msg (if (s.dlBlockEnd env nr src).2 = E.ok then .blockEnd else .stop) ∧
    (v (s.dlEnd env nr).1 = v s ∨ v (s.dlEnd env nr).1 = (v s).msg .stop) ∧ v (s.ulBlockAckn env).1 = v s := by
  intro v
  have vx : ∀ a b : Stack, a.x = b.x → v a = v b := fun a b h => by show carry a data pc out = carry b data pc out; simp only [carry, h]
  have vt : ∀ (a : Stack) (n : Nat) (e : Err), v (a.termination env n e) = (v a).msg .stop := fun _ _ _ => rfl
  refine ⟨rfl, ?_, rfl, ?_, ?_, ?_, ?_, ?_, vx _ _ (callHnd_x env hp s .ulAck s.x.comp)⟩
  · unfold Stack.dlStart1
    split
    · rfl
    · rfl
  · by_cases hb : s.x.busy = true
    · rw [if_pos (Or.inl hb)]
      have : s.ulStart2 env nr src = (s.termination env nr E.dloadInProgress, E.dloadInProgress) := by unfold Stack.ulStart2; rw [if_pos hb]
      rw [this, vt]
      show _ = if s.x.busy = true then _ else _
      rw [if_pos hb]; rfl
    · have hs : ∀ t : Stack, t.x.bytes = s.x.bytes → t.x.objs = s.x.objs → t.x.comp.nr = nr → t.x.busy = true → v t = (v s).msg (.start2 nr) := by
        intro t h1 h2 h3 h4
        show carry t data pc out = if s.x.busy = true then _ else _
        rw [if_neg hb]
        simp only [carry, h1, h2, h3, h4]; rfl
      unfold Stack.ulStart2
      rw [if_neg hb]
      dsimp only
      split
      · rw [if_pos (Or.inr rfl)]
        rw [vx _ _ (callHnd_x env hp _ _ _)]
        exact hs _ rfl rfl rfl rfl
      · next h =>
        rw [if_neg (fun k => k.elim hb h), vt, vx _ _ (callHnd_x env hp _ _ _)]
        exact congrArg (fun w => UlIrq.msg w .stop) (hs _ rfl rfl rfl rfl)
  · by_cases hb : s.x.busy = true
    · rw [if_pos (Or.inl hb)]
      have : s.dlStart2 env nr tp src = (s.termination env nr E.dloadInProgress, E.dloadInProgress) := by unfold Stack.dlStart2; rw [if_pos hb]
      rw [this, vt]
      show _ = if s.x.busy = true then _ else _
      rw [if_pos hb]; rfl
    · have hs : ∀ t : Stack, t.x.bytes = s.x.bytes → t.x.objs = s.x.objs → t.x.comp.nr = nr → t.x.busy = true → v t = (v s).msg (.start2 nr) := by
        intro t h1 h2 h3 h4
        show carry t data pc out = if s.x.busy = true then _ else _
        rw [if_neg hb]
        simp only [carry, h1, h2, h3, h4]; rfl
      unfold Stack.dlStart2
      rw [if_neg hb]
      dsimp only
      split
      · rw [if_pos (Or.inr rfl)]
        rw [vx _ _ (callHnd_x env hp _ _ _)]
        exact hs _ rfl rfl rfl rfl
      · next h =>
        rw [if_neg (fun k => k.elim hb h), vt, vx _ _ (callHnd_x env hp _ _ _)]
        exact congrArg (fun w => UlIrq.msg w .stop) (hs _ rfl rfl rfl rfl)
  · unfold Stack.dlData
    dsimp only
    split
    · rw [if_pos rfl]; rfl
    · rw [vt]; rfl
  · unfold Stack.dlBlockEnd
    dsimp only
    split
    · have hx : ∀ t : Stack, t.x.bytes = s.x.bytes → t.x.objs = s.x.objs → t.x.comp = s.x.comp → t.x.busy = s.x.busy → v t = v s := by
        intro t h1 h2 h3 h4
        show carry t data pc out = carry s data pc out
        simp only [carry, h1, h2, h3, h4]
      have hq : ∀ t : Stack, t.x.comp = s.x.comp → t.x.busy = s.x.busy →
          v ((t.blockAckn env nr).setX fun x => { x with bytes := 0, objs := 0 }) = (v s).msg .blockEnd := by
        intro t h3 h4
        show UlIrq.mk data 0 0 t.x.comp.nr t.x.busy pc out = _
        rw [h3, h4]; rfl
      split
      · split
        · rw [if_pos rfl]
          exact hq _ (by rw [callHnd_x env hp]; rfl) (by rw [callHnd_x env hp]; rfl)
        · rw [vt, vx _ _ (callHnd_x env hp _ _ _)]
          exact congrArg (fun w => UlIrq.msg w .stop) (hx _ rfl rfl rfl rfl)
      · split
        · rw [if_pos rfl]
          exact hq _ (by rw [callHnd_x env hp]) (by rw [callHnd_x env hp])
        · rw [vt, vx _ _ (callHnd_x env hp _ _ _)]
    · rw [if_neg (show ¬ E.byteCountNotMatch = E.ok by decide), vt]
  · unfold Stack.dlEnd
    dsimp only
    split
    · split
      · refine Or.inr ?_
        show (v (Stack.callHnd env s _ _).1).msg .stop = _
        rw [vx _ _ (callHnd_x env hp _ _ _)]
      · exact Or.inl (vx _ _ (callHnd_x env hp _ _ _))
    · rw [vt, vx _ _ (callHnd_x env hp _ _ _)]; exact Or.inr rfl

/-! ## Examples -/

/-- `n` steps of the main loop -/
def steps (n : Nat) : List Evt := List.replicate n (.main true)

def exData : List Byte := [1, 2, 3, 4, 5, 6, 7, 8, 9, 10, 11, 12, 13, 14, 15, 16]

/-- decides `Always Harmless` -/
def harmlessB : UlIrq → List Evt → Bool
  | _, [] => true
  | w, e :: es => (match e with
    | .main _ => true | .msg .stop => true | .msg (.start2 nr) => w.busy || nr == w.nr | _ => false) && harmlessB (w.step e) es

theorem harmless_of (es : List Evt) : ∀ w, harmlessB w es = true → Always Harmless w es := by
  induction es with
  | nil => intro w _; trivial
  | cons e es ih =>
    intro w h
    simp only [harmlessB, Bool.and_eq_true] at h
    refine ⟨?_, ih _ h.2⟩
    cases e with
    | main go => trivial
    | msg m => cases m <;> simp_all [Harmless]

/-- an upload with a stop and a refused start request inside; both are ignored -/
def exCalm : List Evt := steps 30 ++ [.msg (.start2 9), .msg .stop] ++ steps 80

example : Always Harmless (start exData 0 5 true) exCalm ∧ ((start exData 0 5 true).run exCalm).pc = .done ∧
    ((start exData 0 5 true).run exCalm).out = [.data 5 [1, 2, 3, 4, 5, 6, 7], .data 5 [8, 9, 10, 11, 12, 13, 14],
      .data 5 [15, 16, 0, 0, 0, 0, 0], .fin 5 0 16 0 3] :=
  ⟨harmless_of _ _ (by decide +kernel), by decide +kernel, by decide +kernel⟩

/-- after 29 steps the first message waits -/
example : ((start exData 0 5 true).run (steps 29)).pc = .send [1, 2, 3, 4, 5, 6, 7] ∧ ((start exData 0 5 true).run (steps 29)).bytes + 7 < 16 ∧
    ((start exData 0 5 true).run (steps 29)).objs = 0 := by decide +kernel
/-- a continuation as `C142_skip` and `C142_restart` need it -/
example (w : UlIrq) : Always Harmless w (steps 3) := ⟨trivial, trivial, trivial, trivial⟩
/-- the hypothesis of `C142_lost` -/
example : ((start exData 0 5 true).run (steps 3)).pc = .incW [1] 0 := by decide +kernel
/-- the hypotheses of `C142_safe` with download data outside the window -/
example : Inside (start exData 0 5 true) ∧ Always NotInside (start exData 0 5 true) [.main true, .main true, .msg .data, .main true] :=
  ⟨⟨nofun, nofun⟩, trivial, trivial, nofun, trivial, trivial⟩
/-- the hypothesis of `C142_stop` -/
example : ∀ n, Evt.msg (.start2 n) ∉ steps 30 ++ [.msg .stop] ++ steps 80 := by
  intro n h
  simp [steps] at h

/-- **C142**, counterexample: download data for any module of the node arrive before the last byte of the block is read; a byte outside the block is read. -/
theorem C142_counterexample_oob :
    let w := (start [1, 2, 3] 0 5 true).run (steps 9)
    w.pc = .read [1, 2] ∧ (w.run [.msg .data, .main true]).pc = .oob := by decide +kernel

/-- **C142**, counterexample: download data while the first message waits; bytes 8 to 14 are missing, all 16 bytes are announced, and one message too many. -/
theorem C142_counterexample_skip :
    ((start exData 0 5 true).run (steps 29 ++ [.msg .data] ++ steps 40)).out =
      [.data 5 [1, 2, 3, 4, 5, 6, 7], .data 5 [15, 16, 0, 0, 0, 0, 0], .fin 5 0 16 0 3] := by decide +kernel

/-- **C142**, counterexample: a start request to module 9 while the second message waits; module 9 sends the rest of the first block and all of it. -/
theorem C142_counterexample_restart :
    ((start exData 0 5 true).run (steps 62 ++ [.msg (.start1 9)] ++ steps 120)).out =
      [.data 5 [1, 2, 3, 4, 5, 6, 7], .data 9 [8, 9, 10, 11, 12, 13, 14], .data 9 [1, 2, 3, 4, 5, 6, 7], .data 9 [8, 9, 10, 11, 12, 13, 14],
        .data 9 [15, 16, 0, 0, 0, 0, 0], .fin 9 0 16 0 4] := by decide +kernel

/-- **C142**, counterexample: terminated by the master after the first message, the upload sends all the others. -/
theorem C142_counterexample_stop :
    ((start exData 0 5 true).run (steps 30 ++ [.msg .stop])).out = [.data 5 [1, 2, 3, 4, 5, 6, 7]] ∧
    ((start exData 0 5 true).run (steps 30 ++ [.msg .stop] ++ steps 80)).out.length = 4 := by decide +kernel

/-- an application that accepts everything, and a download block of one message: the counters go to 1 and 7 -/
example (A : AEnv) (s : Stack) (h : s.x.objs = 0 ∧ s.x.bytes = 0)
    (hok : (s.dlData { A with reply := fun _ _ => { err := E.ok } } 3 [0x13, 1, 2, 3, 4, 5, 6, 7]).2 = E.ok) :
    let t := (s.dlData { A with reply := fun _ _ => { err := E.ok } } 3 [0x13, 1, 2, 3, 4, 5, 6, 7]).1
    t.x.objs = 1 ∧ t.x.bytes = 7 := by
  intro t
  have k := (C142_steps_messages { A with reply := fun _ _ => { err := E.ok } } (fun _ _ => rfl) s 3 0 [0x13, 1, 2, 3, 4, 5, 6, 7] [] .done []).2.2.2.2.2.1
  rw [if_pos hok] at k
  have e1 : t.x.objs = u16 (s.x.objs + 1) := congrArg UlIrq.objs k
  have e2 : t.x.bytes = u16 (s.x.bytes + 7) := congrArg UlIrq.bytes k
  rw [e1, e2, h.1, h.2]
  exact ⟨rfl, rfl⟩

end UlIrq
end LiCan
