import Verif.Props.Transfer
/-! # C42, exact: what the application finds at the end of a block, whatever is announced -/
namespace LiCan
namespace Spec

/-- The bytes the application finds if `n` bytes are announced for a block with the bytes `d` (as received, with the padding), `c` being left
in the buffer from before: the byte count is a 16 bit difference, and removing more bytes than there are is refused. -/
def blockFound (c d : List Byte) (n : Nat) : List Byte :=
  if n ≤ d.length then c ++ d.take n
  else if n + c.length < 65536 then c ++ d
  else c.take (n + c.length - 65536)

end Spec
open Spec
namespace Stack
open Slave (at8 byteOf)

theorem sub16_gt {a b : Nat} (h : a < b) (hb : b < 65536) : sub16 a b = 65536 - (b - a) := by unfold sub16; omega

theorem dlBlockEnd_found (env : AEnv) (s : Stack) (nr f n : Nat) (c d : List Byte) (hf : s.x.hnd .dlBlock = some f)
    (hk : s.x.objs < 65536) (hL : s.x.bytes = d.length) (hL2 : d.length < 65536) (hn : n < 65536)
    (hh : XBuf.Holds env.bufSize s.x.buf (c ++ d)) :
    ∃ b1, XBuf.Holds env.bufSize b1 (blockFound c d n) ∧ s.dlBlockEnd env nr (blockEndMsg n s.x.objs) =
      (let r := env.reply s.callN (.hnd .dlBlock f s.x.comp)
       let s2 := r.acts.foldl (act env) (blockCall s b1 f)
       if r.err = E.ok then ((s2.blockAckn env nr).setX fun x => { x with bytes := 0, objs := 0 }, E.ok)
       else (s2.termination env nr r.err, r.err)) := by
  by_cases hle : n ≤ d.length
  · obtain ⟨b1, h1, h2⟩ := dlBlockEnd_eq env s nr f n c d hf hk hL hL2 hle hh
    refine ⟨b1, ?_, h2⟩
    unfold blockFound
    rw [if_pos hle]; exact h1
  have h1 : at8 (blockEndMsg n s.x.objs) 1 * 256 + at8 (blockEndMsg n s.x.objs) 2 = n := by
    unfold blockEndMsg
    rw [List.append_assoc]
    exact byteOf_bytes (by omega) _ _
  have h2 : at8 (blockEndMsg n s.x.objs) 3 * 256 + at8 (blockEndMsg n s.x.objs) 4 = s.x.objs := byteOf_bytes' hk _ _
  unfold dlBlockEnd
  generalize blockEndMsg n s.x.objs = msg at h1 h2
  rw [h2, h1, hL]
  dsimp only
  have hq : ∃ q, q = 65536 - (n - d.length) := ⟨_, rfl⟩
  obtain ⟨q, hq⟩ := hq
  have h0 : 0 < q := by omega
  rw [sub16_gt (by omega) hn, if_pos rfl, ← hq]
  simp only [if_pos h0]
  refine ⟨(s.x.buf.removeBytes env.bufSize q).1, ?_, ?_⟩
  · unfold blockFound
    rw [if_neg hle]
    by_cases hc : n + c.length < 65536
    · rw [if_pos hc]
      have : s.x.buf.nr < q := by
        rw [hh.nr, List.length_append]; omega
      unfold XBuf.removeBytes
      rw [if_pos this]; exact hh
    · rw [if_neg hc]
      have hr := (XBuf.holds_remove hh q (by rw [List.length_append]; omega)).2
      have e1 : (c ++ d).length - q = n + c.length - 65536 := by rw [List.length_append]; omega
      rw [e1, List.take_append_of_le_length (by omega)] at hr
      exact hr
  · unfold callHnd
    have e : (s.setX fun x => { x with buf := (x.buf.removeBytes env.bufSize q).1 }).x.hnd .dlBlock = some f := hf
    rw [e]
    rfl

/-- C42, exact: a block is received into a buffer that still holds the bytes `c`, and `n` bytes are announced for it, any number; the handler
reads `m` bytes and then does `rest`.  The handler is called once, its reads return exactly `blockFound`, and the block is acknowledged
iff the handler says OK, otherwise the transfer is terminated with its error - whether what it found was right or not. -/
theorem C42_exact (env : AEnv) (s : Stack) (nr tp f n m : Nat) (c : List Byte) (segs : List (List Byte))
    (rest : List Act) (ha : Addressed env s nr tp) (h1 : 1 ≤ nr) (h2 : nr < 16000) (hf : s.x.hnd .dlBlock = some f)
    (hB : env.bufSize < 65536) (h7 : ∀ g ∈ segs, g.length = 7) (hh : XBuf.Holds env.bufSize s.x.buf c)
    (ho : s.x.objs = 0) (hy : s.x.bytes = 0) (hc : c.length + segs.flatten.length ≤ env.bufSize) (hn : n < 65536)
    (hr : (env.reply s.callN (.hnd .dlBlock f s.x.comp)).acts = List.replicate m .get ++ rest) :
    ∃ l ok, logOf (recv env nr s (segs.map dataMsg ++ [blockEndMsg n segs.length])) =
      .frame (ctrlFrame nr (if (env.reply s.callN (.hnd .dlBlock f s.x.comp)).err = E.ok then [0x1A, 0, 0, 0, 0, 0, 0, 0]
        else termMsg (env.reply s.callN (.hnd .dlBlock f s.x.comp)).err.toNat)) ok ::
      l ++ (gots (blockFound c segs.flatten n) m).reverse ++ .app (.hnd .dlBlock f s.x.comp) :: logOf s := by
  have hk := flatten_le segs h7
  obtain ⟨b', hb', e⟩ := recv_data env nr tp segs s c ha h7 hh hc (by omega) (by omega)
  rw [recv_append, e]
  have e0 : (s.setX fun x => { x with buf := b', objs := x.objs + segs.length, bytes := x.bytes + segs.flatten.length }) =
      s.setX fun x => { x with buf := b', objs := segs.length, bytes := segs.flatten.length } := by
    simp only [setX, ho, hy, Nat.zero_add]
  rw [e0]
  generalize hv : (s.setX fun x => { x with buf := b', objs := segs.length, bytes := segs.flatten.length }) = v
  have ha' : Addressed env v nr tp := by rw [← hv]; exact ha
  have v1 : v.x.objs = segs.length := by rw [← hv]; rfl
  have v2 : v.x.bytes = segs.flatten.length := by rw [← hv]; rfl
  have v3 : v.x.hnd .dlBlock = some f := by rw [← hv]; exact hf
  have v4 : v.callN = s.callN := by rw [← hv]; rfl
  have v5 : v.x.comp = s.x.comp := by rw [← hv]; rfl
  have v6 : logOf v = logOf s := by rw [← hv]; rfl
  have v7 : v.x.buf = b' := by rw [← hv]; rfl
  rw [← v7] at hb'
  obtain ⟨b1, hb1, e3⟩ := dlBlockEnd_found env v nr f n c segs.flatten v3 (by omega) v2 (by omega) hn hb'
  rw [v1] at e3
  simp only [recv]
  rw [asyncRx_eq ha', show v.command env nr tp (blockEndMsg n segs.length) = v.dlBlockEnd env nr (blockEndMsg n segs.length) from rfl, e3]
  dsimp only
  rw [v4, v5, hr, List.foldl_append]
  obtain ⟨b2, hb2, e2⟩ := acts_get env m (blockCall v b1 f) _ hb1
  rw [e2]
  generalize hs3 : ({ blockCall v b1 f with x := { (blockCall v b1 f).x with buf := b2 }, slv := { (blockCall v b1 f).slv with
    node := { (blockCall v b1 f).slv.node with log := (gots (blockFound c segs.flatten n) m).reverse ++ (blockCall v b1 f).slv.node.log } } } : Stack) = s3
  have hlog : logOf s3 = (gots (blockFound c segs.flatten n) m).reverse ++ .app (.hnd .dlBlock f s.x.comp) :: logOf s := by
    rw [← hs3, ← v5, ← v6]; rfl
  obtain ⟨l, el⟩ := (Quiet.acts env rest s3).logExt
  have el : logOf (rest.foldl (act env) s3) = l ++ logOf s3 := el
  generalize rest.foldl (act env) s3 = s4 at el ⊢
  split
  · refine ⟨l, env.sendOk s4.slv.node.sendN, ?_⟩
    show logOf (s4.ctrlTx env nr [0x1A, 0, 0, 0, 0, 0, 0, 0]) = _
    rw [ctrlTx_log env s4 nr _ h1 h2, el, hlog]
    simp
  · obtain ⟨-, ⟨ok, ht⟩, -⟩ := C45_termination env s4 nr (env.reply s.callN (.hnd .dlBlock f s.x.comp)).err h1 h2
    refine ⟨l, ok, ?_⟩
    show logOf (s4.termination env nr _) = _
    rw [ht, el, hlog]
    simp

/-- C42: the application finds what was announced iff at most the received bytes were announced (if anything was received into an empty buffer
or one with fewer bytes than the announced number leaves room for). -/
theorem C42_right_iff (c d : List Byte) (n : Nat) (hn : n < 65536) (hd : c.length + d.length < 65536) :
    (∃ e, e.length = n ∧ blockFound c d n = c ++ e) ↔ n ≤ d.length := by
  unfold blockFound
  constructor
  · rintro ⟨e, h1, h2⟩
    apply Classical.byContradiction
    intro hle
    rw [if_neg hle] at h2
    split at h2
    · have := congrArg List.length h2
      rw [List.length_append, List.length_append] at this
      omega
    · have := congrArg List.length h2
      rw [List.length_append, List.length_take] at this
      omega
  · intro h
    rw [if_pos h]
    exact ⟨d.take n, by rw [List.length_take]; omega, rfl⟩

/-- a first block of 21 bytes, of which the handler reads fourteen -/
def exLeft : Stack := recv exA 5 exS
  (([[1, 2, 3, 4, 5, 6, 7], [8, 9, 10, 11, 12, 13, 14], [15, 16, 17, 18, 19, 20, 21]] : List (List Byte)).map dataMsg ++ [blockEndMsg 21 3])

/-- C42, another counterexample: 65535 bytes are announced for a block of seven.  The application loses the block and the last byte left of the
block before; the block is acknowledged. -/
theorem C42_counterexample_erased :
    Addressed exA exLeft 5 0 ∧ exLeft.x.objs = 0 ∧ exLeft.x.bytes = 0 ∧
    (exFrames (recv exA 5 exLeft (([[31, 32, 33, 34, 35, 36, 37]] : List (List Byte)).map dataMsg ++ [blockEndMsg 65535 1]))).drop 1 =
      [ctrlFrame 5 [0x1A, 0, 0, 0, 0, 0, 0, 0]] ∧
    (exApp (recv exA 5 exLeft (([[31, 32, 33, 34, 35, 36, 37]] : List (List Byte)).map dataMsg ++ [blockEndMsg 65535 1]))).drop 15 =
      .hnd .dlBlock 13 {} :: ([15, 16, 17, 18, 19, 20].map fun b => .got (some b)) ++ List.replicate 8 (.got none) := by
  decide +kernel

/-- the same by `blockFound` -/
example : blockFound [15, 16, 17, 18, 19, 20, 21] [31, 32, 33, 34, 35, 36, 37] 65535 = [15, 16, 17, 18, 19, 20] := by decide

end Stack
end LiCan
