import Verif.Props.XLoad
import Verif.Props.Ids
import Verif.Props.ErrQueue
import Verif.Lemmas.StackExample
/-! # Properties of downloads and uploads (C43 - C45, C57, C58) -/
namespace LiCan
open Spec
namespace Stack
open Slave (at8 byteOf)

/-! ## C45 -/

theorem canMsgCode_append (x : Err) :
    canMsgCode x = (7#4 ++ (x >>> 12).setWidth 4 ++ 0#12 ++ x.setWidth 12 : BitVec 32) := by
  apply BitVec.eq_of_getLsbD_eq
  intro i hi
  simp only [canMsgCode, sgExpand, sgExpandGroup, sgExpandCode, BitVec.getLsbD_append]
  iterate 32 (rcases i with _ | i; · simp)
  exfalso; omega

theorem canMsgCode_toNat (x : Err) : (canMsgCode x).toNat = 7 * 2 ^ 28 + x.toNat / 4096 * 2 ^ 24 + x.toNat % 4096 := by
  have hx := x.isLt
  rw [canMsgCode_append]
  simp only [BitVec.toNat_append, BitVec.toNat_setWidth, BitVec.toNat_ushiftRight, BitVec.toNat_ofNat]
  have h1 : x.toNat >>> 12 % 2 ^ 4 = x.toNat / 4096 := by rw [Nat.shiftRight_eq_div_pow]; omega
  rw [h1, ← Nat.shiftLeft_add_eq_or_of_lt (by omega), ← Nat.shiftLeft_add_eq_or_of_lt (by decide),
    ← Nat.shiftLeft_add_eq_or_of_lt (by omega)]
  simp only [Nat.shiftLeft_eq]
  omega

theorem termBytes_eq (e : Err) : termBytes e = termMsg e.toNat := by
  have hx := e.isLt
  have hs : extractSubgroup (canMsgCode e) = (e >>> 12).setWidth 8 := (C22_error_number_expand e).2.1
  have ho : ((0x70#8 : BitVec 8) ||| (e >>> 12).setWidth 8).toNat = 0x70 + e.toNat / 4096 := by
    rw [BitVec.toNat_or, BitVec.toNat_setWidth, BitVec.toNat_ushiftRight, Nat.shiftRight_eq_div_pow]
    have : e.toNat / 2 ^ 12 % 2 ^ 8 = e.toNat / 4096 := by omega
    rw [this]
    have : (0x70#8).toNat = 7 <<< 4 := rfl
    rw [this, ← Nat.shiftLeft_add_eq_or_of_lt (by omega)]
    rfl
  unfold termBytes termMsg
  simp only [hs, ho, byteOf, canMsgCode_toNat]
  refine List.cons_eq_cons.2 ⟨rfl, List.cons_eq_cons.2 ⟨?_, List.cons_eq_cons.2 ⟨?_, List.cons_eq_cons.2 ⟨?_,
    List.cons_eq_cons.2 ⟨?_, rfl⟩⟩⟩⟩⟩ <;> apply u8_ext <;> simp <;> omega

theorem ctrlTx_log (env : AEnv) (s : Stack) (nr : Nat) (d : List Byte) (h1 : 1 ≤ nr) (h2 : nr < 16000) :
    logOf (s.ctrlTx env nr d) = .frame (ctrlFrame nr d) (env.sendOk s.slv.node.sendN) :: logOf s := by
  have : asyncCtrlTxId nr = 0x601 + 4 * (nr - 1) := by
    rw [asyncCtrlTxId, idOf_eq _ _ _ h1 (by omega)]; omega
  simp only [logOf, ctrlTx, setNode, Node.send, ctrlFrame, this]

/-- C45.  Terminating a transfer releases it, clears the component name and sends exactly one message,
which carries the error number; buffer and counters stay. -/
theorem C45_termination (env : AEnv) (s : Stack) (nr : Nat) (e : Err) (h1 : 1 ≤ nr) (h2 : nr < 16000) :
    Idle (s.termination env nr e) ∧
    (∃ ok, logOf (s.termination env nr e) = .frame (ctrlFrame nr (termMsg e.toNat)) ok :: logOf s) ∧
    (s.termination env nr e).x.buf = s.x.buf ∧ (s.termination env nr e).x.hnd = s.x.hnd := by
  refine ⟨⟨rfl, rfl⟩, ⟨env.sendOk s.slv.node.sendN, ?_⟩, rfl, rfl⟩
  rw [← termBytes_eq]
  exact ctrlTx_log env (s.setX fun x => { x with comp := { x.comp with name := noName } }) nr (termBytes e) h1 h2

/-- the commands of the transfer protocol that are answered by the stack -/
def requests : List Nat := [0x10, 0x12, 0x14, 0x15, 0x16, 0x17, 0x50, 0x1E]

theorem request_term (env : AEnv) (s : Stack) (nr tp : Nat) (src : List Byte) (hc : at8 src 0 ∈ requests)
    (he : (s.command env nr tp src).2 ≠ E.ok) :
    ∃ s1 : Stack, Quiet s s1 ∧ (s.command env nr tp src).1 = s1.termination env nr (s.command env nr tp src).2 := by
  have pair : ∀ {c : Prop} [Decidable c] (x y : Stack × Err), (if c then x else y).2 ≠ E.ok → x.2 = E.ok →
      (if c then x else y) = y := by
    intro c _ x y h hx
    by_cases hc : c
    · rw [if_pos hc] at h; exact absurd hx h
    · exact if_neg hc
  have ok2 : ∀ {c : Prop} [Decidable c] (x y : Stack × Err), x.2 = E.ok → y.2 = E.ok → (if c then x else y).2 = E.ok := by
    intro c _ x y hx hy; split <;> assumption
  have vp : ∀ s : Stack, (s.versionPre env nr).2 ≠ E.ok →
      ∃ s1 : Stack, Quiet s s1 ∧ (s.versionPre env nr).1 = s1.termination env nr (s.versionPre env nr).2 := by
    intro s he
    unfold versionPre at he ⊢
    dsimp only at he ⊢
    rw [pair _ _ he (ok2 _ _ rfl rfl)]
    refine ⟨_, ?_, rfl⟩
    refine Quiet.x (Quiet.trans ?_ (Quiet.callHnd env _ _ _)) _ ?_
    · split
      · exact .refl s
      · exact .setX s _ fun _ => rfl
    · exact fun _ => rfl
  have ip : ∀ s : Stack, (s.infoPre env nr).2 ≠ E.ok →
      ∃ s1 : Stack, Quiet s s1 ∧ (s.infoPre env nr).1 = s1.termination env nr (s.infoPre env nr).2 := by
    intro s he
    unfold infoPre at he ⊢
    dsimp only at he ⊢
    rw [pair _ _ he (ok2 _ _ rfl rfl)]
    refine ⟨_, ?_, rfl⟩
    refine Quiet.x (Quiet.trans ?_ (Quiet.callHnd env _ _ _)) _ ?_
    · split
      · exact .refl s
      · exact .setX s _ fun _ => rfl
    · exact fun _ => rfl
  simp only [requests, List.mem_cons, List.not_mem_nil, or_false] at hc
  unfold command at he ⊢
  rcases hc with h | h | h | h | h | h | h | h <;> rw [h] at he ⊢ <;> simp only at he ⊢
  · obtain ⟨s1, q, e⟩ := vp _ he
    refine ⟨s1, ?_, e⟩
    refine Quiet.trans (Quiet.setX s _ ?_) q
    exact fun _ => rfl
  · obtain ⟨s1, q, e⟩ := vp _ he
    refine ⟨s1, ?_, e⟩
    refine Quiet.trans (Quiet.setX s _ ?_) q
    exact fun _ => rfl
  · unfold dlStart2 at he ⊢
    split at he
    · rename_i hb; rw [if_pos hb]; exact ⟨_, .refl s, rfl⟩
    · rename_i hb; rw [if_neg hb]
      dsimp only at he ⊢
      rw [pair _ _ he rfl]
      refine ⟨_, ?_, rfl⟩
      refine Quiet.trans (Quiet.setX s _ ?_) (Quiet.callHnd env _ _ _)
      exact fun _ => rfl
  · unfold dlData at he ⊢
    dsimp only at he ⊢
    rw [pair _ _ he rfl]
    refine ⟨_, ?_, rfl⟩
    exact .setX s _ fun _ => rfl
  · unfold dlBlockEnd at he ⊢
    dsimp only at he ⊢
    split at he
    · rename_i hb; rw [if_pos hb]
      rw [pair _ _ he rfl]
      refine ⟨_, ?_, rfl⟩
      refine Quiet.trans ?_ (Quiet.callHnd env _ _ _)
      split
      · exact .setX s _ fun _ => rfl
      · exact .refl s
    · rename_i hb; rw [if_neg hb]; exact ⟨_, .refl s, rfl⟩
  · unfold dlEnd at he ⊢
    dsimp only at he ⊢
    rw [pair _ _ he (ok2 _ _ rfl rfl)]
    exact ⟨_, .callHnd env _ _ _, rfl⟩
  · obtain ⟨s1, q, e⟩ := ip _ he
    refine ⟨s1, ?_, e⟩
    refine Quiet.trans (Quiet.setX s _ ?_) q
    exact fun _ => rfl
  · unfold ulStart2 at he ⊢
    split at he
    · rename_i hb; rw [if_pos hb]; exact ⟨_, .refl s, rfl⟩
    · rename_i hb; rw [if_neg hb]
      dsimp only at he ⊢
      rw [pair _ _ he rfl]
      refine ⟨_, ?_, rfl⟩
      refine Quiet.trans (Quiet.setX s _ ?_) (Quiet.callHnd env _ _ _)
      exact fun _ => rfl

/-- C45 (requests).  Whenever a request of the transfer protocol fails - the application's handler
returns an error or is missing, the buffer overflows, the object count is wrong, a transfer is already
running - no transfer is in progress afterwards and the last thing sent is the termination message with
that error number. -/
theorem C45_failed_request (env : AEnv) (s : Stack) (nr tp : Nat) (src : List Byte) (ha : Addressed env s nr tp)
    (h1 : 1 ≤ nr) (h2 : nr < 16000) (hc : at8 src 0 ∈ requests) (he : (s.asyncRx env nr src).2 ≠ E.ok) :
    Idle (s.asyncRx env nr src).1 ∧
    ∃ ok l, logOf (s.asyncRx env nr src).1 =
      .frame (ctrlFrame nr (termMsg (s.asyncRx env nr src).2.toNat)) ok :: (l ++ logOf s) := by
  rw [asyncRx_eq ha] at he ⊢
  obtain ⟨s1, q, e1⟩ := request_term env s nr tp src hc he
  obtain ⟨l, el⟩ := q.logExt
  obtain ⟨hi, ⟨ok, hl⟩, -⟩ := C45_termination env s1 nr (s.command env nr tp src).2 h1 h2
  rw [← e1] at hi hl
  refine ⟨hi, ok, l, ?_⟩
  rw [hl]
  exact congrArg _ el

/-- nothing handles a version request: it is terminated with UNKNOWN_COMPONENT -/
example : Addressed exA { exS with x := {} } 5 0 ∧
    (asyncRx exA { exS with x := {} } 5 [0x10, 0, 0, 0, 0, 0, 0, 0]).2 = E.unknownComponent ∧
    exFrames (asyncRx exA { exS with x := {} } 5 [0x10, 0, 0, 0, 0, 0, 0, 0]).1 = [ctrlFrame 5 (termMsg 0x5034)] ∧
    Idle (asyncRx exA { exS with x := {} } 5 [0x10, 0, 0, 0, 0, 0, 0, 0]).1 := by decide +kernel

/-! ## C43 -/

/-- C43, provable part.  A start request (download or upload) while a transfer is in progress is refused
with DLOAD_IN_PROGRESS: one termination message, no handler of the application is called, buffer and
counters are untouched.  The first of the two start messages changes nothing at all.  Missing: the
transfer does not continue, see `C43_counterexample`. -/
theorem C43_refused_partial (env : AEnv) (s : Stack) (nr tp : Nat) (src : List Byte) (ha : Addressed env s nr tp)
    (hb : s.x.busy = true) (h1 : 1 ≤ nr) (h2 : nr < 16000) :
    (at8 src 0 = 0x13 → s.asyncRx env nr src = (s, E.ok)) ∧
    (at8 src 0 = 0x14 ∨ at8 src 0 = 0x1E →
      (s.asyncRx env nr src).2 = E.dloadInProgress ∧
      (∃ ok, logOf (s.asyncRx env nr src).1 = .frame (ctrlFrame nr (termMsg 0x5035)) ok :: logOf s) ∧
      (s.asyncRx env nr src).1.x.buf = s.x.buf ∧ (s.asyncRx env nr src).1.x.objs = s.x.objs ∧
      (s.asyncRx env nr src).1.x.bytes = s.x.bytes) := by
  rw [asyncRx_eq ha]
  unfold command
  refine ⟨fun h => ?_, fun h => ?_⟩
  · rw [h]; simp only [dlStart1, hb, if_true]
  · obtain ⟨-, hl, -⟩ := C45_termination env s nr E.dloadInProgress h1 h2
    rcases h with h | h <;> rw [h] <;> simp only [dlStart2, ulStart2, hb, if_true] <;> exact ⟨trivial, hl, rfl, rfl, rfl⟩

/-- start of a download of component "COMPONEN" -/
def exStart1 : List Byte := [0x13, 67, 79, 77, 80, 79, 78, 69]
def exStart2 : List Byte := [0x14, 78, 1, 2, 3, 4, 5, 6]

/-- a transfer in progress, refused start -/
example : Addressed exA (recv exA 5 exS [exStart1, exStart2]) 5 0 ∧ (recv exA 5 exS [exStart1, exStart2]).x.busy = true ∧
    exApp (recv exA 5 exS [exStart1, exStart2]) =
      [.hnd .dlStartReq 12 ⟨5, [67, 79, 77, 80, 79, 78, 69, 78], 0x0102, 0x03040506, 0, [77, 68, 65]⟩] ∧
    exFrames (recv exA 5 exS [exStart1, exStart2, exStart1, exStart2]) = [ctrlFrame 5 (termMsg 0x5035)] := by decide +kernel

/-- C43, counterexample to the second half.  After the refusal the running transfer is gone: a third
start request is accepted (the application is asked again) although the first transfer never ended. -/
theorem C43_counterexample :
    Addressed exA (recv exA 5 exS [exStart1, exStart2]) 5 0 ∧ (recv exA 5 exS [exStart1, exStart2]).x.busy = true ∧
    Idle (recv exA 5 exS [exStart1, exStart2, exStart1, exStart2]) ∧
    (exApp (recv exA 5 exS [exStart1, exStart2, exStart1, exStart2])).length = 1 ∧
    (exApp (recv exA 5 exS [exStart1, exStart2, exStart1, exStart2, exStart1, exStart2])).length = 2 := by decide +kernel

/-! ## C42, further cases -/

/-- C42 (wrong object count).  A block end whose number of objects is not the number received is
terminated with BYTE_COUNT_NOT_MATCH and the application is not called. -/
theorem C42_object_count (env : AEnv) (s : Stack) (nr tp n k : Nat) (ha : Addressed env s nr tp)
    (hk : k < 65536) (hne : s.x.objs ≠ k) (h1 : 1 ≤ nr) (h2 : nr < 16000) :
    (s.asyncRx env nr (blockEndMsg n k)).2 = E.byteCountNotMatch ∧
    ∃ ok, logOf (s.asyncRx env nr (blockEndMsg n k)).1 = .frame (ctrlFrame nr (termMsg 0x5039)) ok :: logOf s := by
  rw [asyncRx_eq ha]
  have e : s.command env nr tp (blockEndMsg n k) = s.dlBlockEnd env nr (blockEndMsg n k) := rfl
  have h3 : at8 (blockEndMsg n k) 3 * 256 + at8 (blockEndMsg n k) 4 = k := byteOf_bytes' hk _ _
  rw [e]
  unfold dlBlockEnd
  generalize blockEndMsg n k = msg at h3
  rw [h3]
  dsimp only
  rw [if_neg (Ne.symm hne)]
  obtain ⟨-, hl, -⟩ := C45_termination env s nr E.byteCountNotMatch h1 h2
  exact ⟨rfl, hl⟩

/-- two data messages, thirteen bytes -/
def exSegs : List (List Byte) := [[1, 2, 3, 4, 5, 6, 7], [8, 9, 10, 11, 12, 13, 0]]

/-- the handler reads exactly the thirteen bytes (its fourteenth read finds nothing) and the block is
acknowledged; one object missing: terminated -/
example : exApp (recv exA 5 exS (exSegs.map dataMsg ++ [blockEndMsg 13 2])) =
      .hnd .dlBlock 13 {} :: ([1, 2, 3, 4, 5, 6, 7, 8, 9, 10, 11, 12, 13].map fun b => .got (some b)) ++ [.got none] ∧
    exFrames (recv exA 5 exS (exSegs.map dataMsg ++ [blockEndMsg 13 2])) = [ctrlFrame 5 [0x1A, 0, 0, 0, 0, 0, 0, 0]] ∧
    exFrames (recv exA 5 exS (exSegs.map dataMsg ++ [blockEndMsg 13 3])) = [ctrlFrame 5 (termMsg 0x5039)] := by decide +kernel

/-- the hypotheses of `C42_block_partial` -/
example : Addressed exA exS 5 0 ∧ exS.x.hnd .dlBlock = some 13 ∧ exA.bufSize < 65536 ∧ (∀ g ∈ exSegs, g.length = 7) ∧
    XBuf.Holds exA.bufSize exS.x.buf [] ∧ exS.x.objs = 0 ∧ exS.x.bytes = 0 ∧
    ([] : List Byte).length + exSegs.flatten.length ≤ exA.bufSize ∧ 13 ≤ exSegs.flatten.length ∧
    (exA.reply exS.callN (.hnd .dlBlock 13 exS.x.comp)).acts = List.replicate 14 .get ++ [] := by
  refine ⟨by decide +kernel, by decide +kernel, by decide +kernel, by decide +kernel, ?_, by decide +kernel,
    by decide +kernel, by decide +kernel, by decide +kernel, rfl⟩
  have : exS.x.buf.nr = 0 ∧ exS.x.buf.read = 0 ∧ exS.x.buf.write = 0 := by decide +kernel
  obtain ⟨h1, h2, h3⟩ := this
  exact ⟨by rw [h2]; decide, by rw [h1]; rfl, by decide, by rw [h2, h3]; rfl, by intro i hi; cases hi⟩

/-- C42, counterexample to the full claim.  A block end that announces twenty bytes after one data
message (seven bytes) is acknowledged; the application finds seven bytes. -/
theorem C42_counterexample :
    Addressed exA exS 5 0 ∧
    exFrames (recv exA 5 exS (([[1, 2, 3, 4, 5, 6, 7]] : List (List Byte)).map dataMsg ++ [blockEndMsg 20 1])) =
      [ctrlFrame 5 [0x1A, 0, 0, 0, 0, 0, 0, 0]] ∧
    exApp (recv exA 5 exS (([[1, 2, 3, 4, 5, 6, 7]] : List (List Byte)).map dataMsg ++ [blockEndMsg 20 1])) =
      .hnd .dlBlock 13 {} :: ([1, 2, 3, 4, 5, 6, 7].map fun b => .got (some b)) ++ List.replicate 7 (.got none) := by
  decide +kernel

/-! ## C41, examples -/

/-- "MAINPROG" as six bit characters -/
def exName : List Nat := [45, 33, 41, 46, 48, 50, 47, 39]

example : Addressed exA exS 5 0 ∧ exName.length = 8 ∧ (∀ c ∈ exName, c < 64) ∧ exS.x.hnd .dlVersion = some 11 ∧
    exS.x.hnd .ulInfo = some 15 ∧ nameText exName = [77, 65, 73, 78, 80, 82, 79, 71] ∧
    exApp (recv exA 5 exS [0x10 :: 7 :: packName exName, 0x50 :: 8 :: packName exName]) =
      [.hnd .dlVersion 11 { nr := 5, name := [77, 65, 73, 78, 80, 82, 79, 71], index := 7 },
       .hnd .ulInfo 15 { nr := 5, name := [77, 65, 73, 78, 80, 82, 79, 71], index := 8 }] := by decide +kernel

/-! ## C57: a whole download -/

/-- what the application has read, in the order of reading -/
def readBytes (l : List Ev) : List Byte := l.reverse.filterMap fun e => match e with
  | .app (.got x) => x
  | _ => none

/-- number of block acknowledges module `nr` tried to send -/
def ackCount (nr : Nat) (l : List Ev) : Nat := l.countP fun e => match e with
  | .frame f _ => decide (f = ctrlFrame nr [0x1A, 0, 0, 0, 0, 0, 0, 0])
  | _ => false

/-- the messages of one block: its data messages and the block end -/
def blockMsgs (b : List (List Byte) × Nat) : List (List Byte) := b.1.map dataMsg ++ [blockEndMsg b.2 b.1.length]

theorem readBytes_gots (q : List Byte) (m : Nat) (h : q.length ≤ m) : readBytes (gots q m).reverse = q := by
  unfold readBytes
  rw [List.reverse_reverse]
  induction m generalizing q with
  | zero => have : q = [] := List.length_eq_zero_iff.1 (by omega); subst this; rfl
  | succ m ih =>
    rw [gots_succ]
    cases q with
    | nil =>
      simp only [List.filterMap_cons]
      exact ih [] (by simp)
    | cons x q =>
      simp only [List.filterMap_cons, List.getElem?_cons_zero, List.tail_cons]
      rw [ih q (by simp only [List.length_cons] at h; omega)]

theorem ackCount_gots (nr : Nat) (q : List Byte) (m : Nat) : ackCount nr (gots q m).reverse = 0 := by
  unfold ackCount
  rw [List.countP_eq_zero]
  intro e he
  simp only [gots, List.mem_reverse, List.mem_map] at he
  obtain ⟨i, -, rfl⟩ := he
  simp

theorem readBytes_append (a b : List Ev) : readBytes (a ++ b) = readBytes b ++ readBytes a := by
  simp [readBytes, List.filterMap_append]

theorem ackCount_append (nr : Nat) (a b : List Ev) : ackCount nr (a ++ b) = ackCount nr a + ackCount nr b := by
  simp [ackCount, List.countP_append]

/-- one block read to the end by the handler -/
theorem block_read (env : AEnv) (s : Stack) (nr tp f : Nat) (b : List (List Byte) × Nat)
    (ha : Addressed env s nr tp) (hf : s.x.hnd .dlBlock = some f) (hB : env.bufSize < 65536)
    (h1 : 1 ≤ nr) (h2 : nr < 16000)
    (hr : ∀ k c, ∃ m, env.bufSize ≤ m ∧ (env.reply k (.hnd .dlBlock f c)).acts = List.replicate m .get ∧
      (env.reply k (.hnd .dlBlock f c)).err = E.ok)
    (hh : XBuf.Holds env.bufSize s.x.buf []) (ho : s.x.objs = 0) (hy : s.x.bytes = 0)
    (h7 : ∀ g ∈ b.1, g.length = 7) (hc : b.1.flatten.length ≤ env.bufSize) (hn : b.2 ≤ b.1.flatten.length) :
    ∃ s', s' = recv env nr s (blockMsgs b) ∧ Addressed env s' nr tp ∧ s'.x.hnd .dlBlock = some f ∧
      XBuf.Holds env.bufSize s'.x.buf [] ∧ s'.x.objs = 0 ∧ s'.x.bytes = 0 ∧ s'.x.busy = s.x.busy ∧ s'.x.comp = s.x.comp ∧
      ∃ l, logOf s' = l ++ logOf s ∧ readBytes l = b.1.flatten.take b.2 ∧ ackCount nr l = 1 := by
  obtain ⟨b1, v, hb1, hv, e⟩ := recv_block env s nr tp f b.2 [] b.1 ha hf hB h7 hh ho hy (by simpa using hc) hn
  obtain ⟨m, hm, hacts, herr⟩ := hr s.callN s.x.comp
  simp only [hacts, herr, if_true, List.nil_append] at e hb1
  obtain ⟨b2, hb2, e2⟩ := acts_get env m (blockCall v b1 f) _ hb1
  have hlen : (b.1.flatten.take b.2).length ≤ m := by rw [List.length_take]; omega
  have hd : (b.1.flatten.take b.2).drop m = [] := List.drop_eq_nil_of_le hlen
  rw [hd] at hb2
  rw [e2] at e
  refine ⟨_, rfl, ?_⟩
  unfold blockMsgs
  rw [e]
  generalize hs3 : ({ blockCall v b1 f with x := { (blockCall v b1 f).x with buf := b2 }, slv := { (blockCall v b1 f).slv with
    node := { (blockCall v b1 f).slv.node with log := (gots (b.1.flatten.take b.2) m).reverse ++ (blockCall v b1 f).slv.node.log } } } : Stack) = s3
  have hlog : logOf s3 = (gots (b.1.flatten.take b.2) m).reverse ++ .app (.hnd .dlBlock f s.x.comp) :: logOf s := by
    rw [← hs3, hv]; rfl
  have hl2 := ctrlTx_log env s3 nr [0x1A, 0, 0, 0, 0, 0, 0, 0] h1 h2
  have hrows : Light s.slv.node (s3.ctrlTx env nr [0x1A, 0, 0, 0, 0, 0, 0, 0]).slv.node := by
    rw [← hs3, hv]; exact ⟨rfl, rfl, rfl, rfl, rfl, rfl, rfl, rfl⟩
  refine ⟨ha.quiet hrows, by rw [← hs3, hv]; exact hf, by rw [← hs3]; exact hb2, rfl, rfl, by rw [← hs3, hv]; rfl,
    by rw [← hs3, hv]; rfl, ?_⟩
  refine ⟨.frame (ctrlFrame nr [0x1A, 0, 0, 0, 0, 0, 0, 0]) (env.sendOk s3.slv.node.sendN) ::
    ((gots (b.1.flatten.take b.2) m).reverse ++ [.app (.hnd .dlBlock f s.x.comp)]), ?_, ?_, ?_⟩
  · refine Eq.trans hl2 ?_
    rw [hlog]; simp
  · rw [← List.singleton_append, readBytes_append, readBytes_append, readBytes_gots _ _ hlen]
    simp [readBytes]
  · rw [← List.singleton_append, ackCount_append, ackCount_append, ackCount_gots]
    simp [ackCount]

/-- C57.  A download of any number of blocks, each fitting into the buffer and each with at most the
announced bytes really sent: if the block handler reads until the buffer is empty and accepts, then what it reads is
exactly the concatenation of the announced bytes of all blocks, in order, and each block is acknowledged
once. -/
theorem C57_download (env : AEnv) (nr tp f : Nat) (hB : env.bufSize < 65536) (h1 : 1 ≤ nr) (h2 : nr < 16000)
    (hr : ∀ k c, ∃ m, env.bufSize ≤ m ∧ (env.reply k (.hnd .dlBlock f c)).acts = List.replicate m .get ∧
      (env.reply k (.hnd .dlBlock f c)).err = E.ok) (blocks : List (List (List Byte) × Nat)) :
    ∀ s : Stack, Addressed env s nr tp → s.x.hnd .dlBlock = some f → XBuf.Holds env.bufSize s.x.buf [] →
    s.x.objs = 0 → s.x.bytes = 0 →
    (∀ b ∈ blocks, (∀ g ∈ b.1, g.length = 7) ∧ b.1.flatten.length ≤ env.bufSize ∧ b.2 ≤ b.1.flatten.length) →
    ∃ l, logOf (recv env nr s (blocks.flatMap blockMsgs)) = l ++ logOf s ∧
      readBytes l = blocks.flatMap (fun b => b.1.flatten.take b.2) ∧ ackCount nr l = blocks.length ∧
      (recv env nr s (blocks.flatMap blockMsgs)).x.busy = s.x.busy := by
  induction blocks with
  | nil => intro s _ _ _ _ _ _; exact ⟨[], rfl, rfl, rfl, rfl⟩
  | cons b bs ih =>
    intro s ha hf hh ho hy hb
    obtain ⟨h7, hc, hn⟩ := hb b (by simp)
    obtain ⟨s', e', ha', hf', hh', ho', hy', hbusy, -, l1, el1, hr1, hk1⟩ :=
      block_read env s nr tp f b ha hf hB h1 h2 hr hh ho hy h7 hc hn
    obtain ⟨l2, el2, hr2, hk2, hbusy2⟩ := ih s' ha' hf' hh' ho' hy' (fun x hx => hb x (by simp [hx]))
    rw [List.flatMap_cons, recv_append, ← e']
    refine ⟨l2 ++ l1, by rw [el2, el1, List.append_assoc], ?_, ?_, hbusy2.trans hbusy⟩
    · rw [readBytes_append, hr1, hr2, List.flatMap_cons]
    · rw [ackCount_append, hk1, hk2, List.length_cons]

/-- the acknowledge of the start leaves the buffer empty and the counters at zero, whatever was there before -/
theorem startAckn_clean (env : AEnv) (s : Stack) (nr m : Nat) (d : Byte) (hB : 0 < env.bufSize) :
    XBuf.Holds env.bufSize (s.startAckn env nr m d).x.buf [] ∧ (s.startAckn env nr m d).x.objs = 0 ∧
    (s.startAckn env nr m d).x.bytes = 0 := by
  refine ⟨⟨hB, rfl, by simp, ?_, by intro i hi; cases hi⟩, rfl, rfl⟩
  show 0 = (0 + _) % _
  simp

/-- the handler reads up to 200 bytes; two blocks of 14 and 5 bytes -/
def exA2 : AEnv := { exA with reply := fun _ c => match c with
  | .hnd .dlBlock _ _ => { acts := List.replicate 200 .get }
  | _ => {} }

example : let blocks : List (List (List Byte) × Nat) := [(exSegs, 14), ([[1, 1, 1, 1, 1, 0, 0]], 5)]
    (∀ b ∈ blocks, (∀ g ∈ b.1, g.length = 7) ∧ b.1.flatten.length ≤ exA2.bufSize ∧ b.2 ≤ b.1.flatten.length) ∧
    readBytes (logOf (recv exA2 5 exS (blocks.flatMap blockMsgs))) = [1, 2, 3, 4, 5, 6, 7, 8, 9, 10, 11, 12, 13, 0, 1, 1, 1, 1, 1] ∧
    ackCount 5 (logOf (recv exA2 5 exS (blocks.flatMap blockMsgs))) = 2 := by decide +kernel

end Stack
end LiCan
