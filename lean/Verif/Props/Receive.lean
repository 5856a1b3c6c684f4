import Verif.Model.Receive
import Verif.Lemmas.StackRest
import Verif.Lemmas.StackExample
import Verif.Spec.Driver
/-! # C90: the effect of a received frame -/
namespace LiCan
open Node

/-- The receive conversions look at the bytes of the object only. -/
def ReadsObject (env : Env) : Prop :=
  ∀ k a b dlc m, a.take dlc = b.take dlc → env.rxConv k a dlc m = env.rxConv k b dlc m

namespace Slave

theorem callRx_local {env : Env} (hc : ReadsObject env) (n : Node) (c : Conv) {a b : List Byte} (p dlc : Nat)
    (h : a.take dlc = b.take dlc) : n.callRx env c a p dlc = n.callRx env c b p dlc := by
  unfold Node.callRx
  split
  · rfl
  · rfl
  · rw [hc _ a b dlc _ h]

theorem dataPart_local {env : Env} (hc : ReadsObject env) (s : Slave) (obj dlc id : Nat) {a b : List Byte}
    (h : a.take dlc = b.take dlc) : dataPart env s obj dlc id a = dataPart env s obj dlc id b := by
  have : ∀ tp, rxData env s tp id dlc a = rxData env s tp id dlc b := by
    intro tp
    unfold rxData
    simp only [callRx_local hc s.node _ _ dlc h]
  unfold dataPart
  simp only [this]

theorem sysPart_short (env : Env) (s : Slave) {dlc : Nat} (id : Nat) (a : List Byte) (h : dlc ≠ 8) :
    sysPart env s dlc id a = some { s with node := s.node.report env E.invalidSysDlc } := by
  unfold sysPart sysMsg
  rw [if_pos h]
  rfl

/-- The handler for process data, requests and system messages depends on the bytes of the frame only. -/
theorem handlerRx_local {env : Env} (hc : ReadsObject env) (s : Slave) (now obj dlc id : Nat) {a b : List Byte}
    (ha : a.length = 8) (hb : b.length = 8) (h : a.take dlc = b.take dlc) :
    handlerRx env s now obj dlc id a = handlerRx env s now obj dlc id b := by
  rw [handlerRx_eq, handlerRx_eq, dataPart_local hc s obj dlc id h]
  by_cases hd : dlc = 8
  · subst hd
    rw [List.take_of_length_le (by omega), List.take_of_length_le (by omega)] at h
    rw [h]
  · simp only [sysPart_short env _ id _ hd]

theorem callOpt_hw (s : Slave) (f : Option Nat) : (s.callOpt f).node.hw = s.node.hw := by
  unfold callOpt; split <;> rfl

theorem checkImage_hw (env : Env) (s : Slave) (now : Nat) : (checkImage env s now).node.hw = s.node.hw := by
  have hs : ∀ (r : Slave × Bool) i, (checkStep now r i).1.node.hw = r.1.node.hw := by
    intro r i
    have hm : (checkModule r.1 now i).1.node.hw = r.1.node.hw := by unfold checkModule; split <;> rfl
    unfold checkStep
    simp only
    split <;> (dsimp only; rw [callOpt_hw]; exact hm)
  have hf : ∀ (is : List Nat) (r : Slave × Bool), (is.foldl (checkStep now) r).1.node.hw = r.1.node.hw := by
    intro is
    induction is with
    | nil => exact fun _ => rfl
    | cons i is ih => exact fun r => (ih _).trans (hs r i)
  unfold checkImage
  split
  · split
    · rfl
    split
    · rfl
    have h := hf (List.range s.node.nrMod) (s, true)
    simp only
    generalize List.foldl (checkStep now) (s, true) (List.range s.node.nrMod) = r at h ⊢
    split
    · show (callOpt _ _).node.hw = _
      rw [callOpt_hw]; exact h
    · exact h
  · rfl

/-- A frame that is not of eight bytes leaves the message objects alone. -/
theorem handlerRx_hw {env : Env} {s s' : Slave} {now obj dlc id : Nat} {a : List Byte} (hd : dlc ≠ 8)
    (h : handlerRx env s now obj dlc id a = some s') : s'.node.hw = s.node.hw := by
  rw [handlerRx_eq] at h
  have hdp := (dataPart_keeps env s obj dlc id a).1.hw
  have hr : ∀ s2, reqPart env (dataPart env s obj dlc id a) now obj dlc = some s2 → s2.node.hw = s.node.hw := by
    intro s2 h2
    unfold reqPart at h2
    split at h2
    · refine ((processRequest_spec h2).1.hw).trans ((checkImage_hw env _ now).trans ?_)
      rw [reqRx_eq]; exact hdp
    · injection h2 with h2; rw [← h2]; exact hdp
  split at h
  · simp only [Option.bind_eq_some_iff] at h
    obtain ⟨s2, h2, h3⟩ := h
    rw [sysPart_short env _ id a hd] at h3
    injection h3 with h3
    rw [← h3]
    exact ((Light.report env s2.node _).hw).trans (hr s2 h2)
  · exact hr s' h

end Slave
namespace Stack

theorem processTx_hw (env : AEnv) (s : Stack) (now : Nat) : (s.processTx env now).1.slv.node.hw = s.slv.node.hw := by
  have hq : ∀ s : Stack, (handleQ env s).1.slv.node.hw = s.slv.node.hw := by
    intro s
    unfold handleQ
    split
    · dsimp only
      split <;> exact (Light.send env.toEnv s.slv.node _).hw
    · rfl
  have hh : ∀ s : Stack, (handlerTx env s).slv.node.hw = s.slv.node.hw := by
    intro s
    unfold handlerTx
    split
    · split
      · exact ((Light.report env.toEnv _ _).hw).trans (hq s)
      · rfl
    · rfl
  have he : ∀ (s : Stack) nr dlc src, (s.enqueue env nr dlc src).1.slv.node.hw = s.slv.node.hw := by
    intro s nr dlc src
    unfold Stack.enqueue
    split
    · rfl
    split
    · rfl
    · exact hh _
  unfold Stack.processTx
  split
  · rfl
  split
  · split
    · have h := he s s.tnl.own s.tnl.tmp.length s.tnl.tmp
      generalize s.enqueue env s.tnl.own s.tnl.tmp.length s.tnl.tmp = r at h ⊢
      simp only
      split <;> exact h
    · rfl
  · rfl

theorem rx_local {env : AEnv} (hc : ReadsObject env.toEnv) (s : Stack) (now obj dlc id : Nat) (ext : Bool) {a b : List Byte}
    (ha : a.length = 8) (hb : b.length = 8) (h : a.take dlc = b.take dlc)
    (hx : dlc = 8 ∨ Node.bit obj &&& s.slv.node.hw.ctrlMask = 0) :
    s.rx env now obj dlc id ext a = s.rx env now obj dlc id ext b := by
  by_cases hd : dlc = 8
  · subst hd
    rw [List.take_of_length_le (by omega), List.take_of_length_le (by omega)] at h
    rw [h]
  · have hm := hx.resolve_left hd
    unfold Stack.rx
    dsimp only
    split
    · rfl
    split
    · rfl
    rw [Slave.handlerRx_local hc _ now obj dlc id ha hb h]
    cases hr : Slave.handlerRx env.toEnv (s.setR fun c => { c with pending := .msg }).slv now obj dlc id b with
    | none => rfl
    | some v =>
      have h1 : v.node.hw = s.slv.node.hw := Slave.handlerRx_hw hd hr
      have h2 := processTx_hw env ((s.setR fun c => { c with pending := .msg }).setSlv env v) now
      have h3 : ((s.setR fun c => { c with pending := .msg }).setSlv env v).slv.node.hw = s.slv.node.hw := h1
      simp only [Option.map_some]
      generalize (processTx env ((s.setR fun c => { c with pending := .msg }).setSlv env v) now).1 = s2 at *
      have hk : ∀ src, s2.ctrlRx env obj id src = s2 := by
        intro src
        unfold ctrlRx
        rw [h2, h3, hm]
        rfl
      rw [hk, hk]
      unfold dataRx
      rw [h]

/-- A message of the driver as received in full: at most eight bytes, eight in a buffer for control messages. -/
def InFull (s : Stack) : HIn → Prop
  | .frame _ idx _ b => b.dlc ≤ 8 ∧ (b.dlc = 8 ∨ Node.bit idx &&& s.slv.node.hw.ctrlMask = 0)
  | .other _ => True

/-- All messages of a history are received in full. -/
def AllInFull (env : AEnv) (stale : Nat → List Byte) : Stack → List HIn → Prop
  | _, [] => True
  | s, i :: is => InFull s i ∧ ∀ s', s.hwStep env (stale 0) i = some s' → AllInFull env (fun n => stale (n + 1)) s' is

theorem getData_take (b : CpMsg) (g h : List Byte) (n : Nat) (hn : n ≤ 8) :
    (bufferGetData b g n).take n = (bufferGetData b h n).take n := by
  unfold bufferGetData
  rw [if_neg (by omega), if_neg (by omega)]
  rw [List.take_left' (by simp), List.take_left' (by simp)]

theorem getData_length (b : CpMsg) (g : List Byte) (n : Nat) (hg : g.length = 8) : (bufferGetData b g n).length = 8 := by
  unfold bufferGetData
  split
  · exact hg
  · simp; omega

theorem hwStep_local {env : AEnv} (hc : ReadsObject env.toEnv) (s : Stack) (i : HIn) {g h : List Byte}
    (hg : g.length = 8) (hh : h.length = 8) (hi : InFull s i) : s.hwStep env g i = s.hwStep env h i := by
  cases i with
  | other i => rfl
  | frame now idx m b =>
    exact rx_local hc s now idx b.dlc _ _ (getData_length b g _ hg) (getData_length b h _ hh)
      (getData_take b g h _ hi.1) hi.2

/-- C90.  What the stack does is determined by the received bytes: it does not depend on what the receive handler
finds on the stack, as long as messages are of at most eight bytes, control messages of exactly eight and the
application's conversions look at their object only. -/
theorem C90_only_received_bytes_partial (env : AEnv) (hc : ReadsObject env.toEnv) :
    ∀ (is : List HIn) (s : Stack) (stale stale' : Nat → List Byte), (∀ n, (stale n).length = 8) →
      (∀ n, (stale' n).length = 8) → AllInFull env stale s is → hwRun env stale s is = hwRun env stale' s is := by
  intro is
  induction is with
  | nil => intros; rfl
  | cons i is ih =>
    intro s st st' h1 h2 hf
    unfold hwRun
    rw [hwStep_local hc s i (h2 0) (h1 0) hf.1, hwStep_local hc s i (h1 0) (h2 0) hf.1]
    cases hs : s.hwStep env (st 0) i with
    | none => rw [← hwStep_local hc s i (h1 0) (h2 0) hf.1, hs]; rfl
    | some s' =>
      rw [← hwStep_local hc s i (h1 0) (h2 0) hf.1, hs]
      exact ih s' _ _ (fun n => h1 (n + 1)) (fun n => h2 (n + 1)) (hf.2 s' hs)

/-- message buffers for the examples: a close request of one byte, a long message, a status request for module 5 and
a number change 9 → 20 -/
def exClose : CpMsg := ⟨0x610, 1, 0, [2, 0, 0, 0, 0, 0, 0, 0]⟩
def exLong : CpMsg := ⟨0x612, 9, 0, [1, 2, 3, 4, 5, 6, 7, 8]⟩
def exStatus : CpMsg := ⟨0x010, 8, 0, [1, 0, 0, 0, 0, 0, 0, 0]⟩
def exChange : CpMsg := ⟨0x020, 8, 0, [0x20, 0, 20, 0, 0, 0, 0, 0]⟩

/-- process data of two bytes for module 5, then a status request: the hypotheses hold, six frames of the stack -/
example : ReadsObject exA.toEnv ∧
    AllInFull exA (fun _ => [1, 2, 3, 4, 5, 6, 7, 8]) exS
      [.frame 10 4 ⟨0x210, 2, 0, [9, 9, 0, 0, 0, 0, 0, 0]⟩ ⟨0x210, 2, 0, [9, 9, 0, 0, 0, 0, 0, 0]⟩,
       .frame 20 0 ⟨0x000, 0, 0, [0, 0, 0, 0, 0, 0, 0, 0]⟩ ⟨0x000, 0, 0, [0, 0, 0, 0, 0, 0, 0, 0]⟩,
       .frame 30 2 exStatus exStatus] ∧
    (hwRun exA (fun _ => [1, 2, 3, 4, 5, 6, 7, 8]) exS
      [.frame 10 4 ⟨0x210, 2, 0, [9, 9, 0, 0, 0, 0, 0, 0]⟩ ⟨0x210, 2, 0, [9, 9, 0, 0, 0, 0, 0, 0]⟩,
       .frame 20 0 ⟨0x000, 0, 0, [0, 0, 0, 0, 0, 0, 0, 0]⟩ ⟨0x000, 0, 0, [0, 0, 0, 0, 0, 0, 0, 0]⟩,
       .frame 30 2 exStatus exStatus]).map (fun s => (exFrames s).length) = some 6 := by
  refine ⟨?_, ?_, by decide +kernel⟩
  · intro k a b dlc m h
    show (_, _) = (_, _)
    rw [h]
  · refine ⟨⟨by decide, .inr (by decide +kernel)⟩, fun s1 h1 => ⟨⟨by decide, .inr ?_⟩, fun s2 h2 => ⟨⟨by decide, .inl rfl⟩, fun _ _ => trivial⟩⟩⟩
    have : ∀ o : Option Stack, o = some s1 → (o.map fun s => Node.bit 0 &&& s.slv.node.hw.ctrlMask) = some 0 →
        Node.bit 0 &&& s1.slv.node.hw.ctrlMask = 0 := by
      intro o e h; subst e; exact Option.some.inj h
    exact this _ h1 (by decide +kernel)

/-- C90.  A frame given to the driver of one node (C84) arrives as it was given to another: identifier, length and
bytes, behind them what the array held. -/
theorem C90_frame_arrives (env : AEnv) (s : Stack) (now idx : Nat) (f : Frame) (hf : Spec.Legal f) (stale : List Byte) :
    ∃ m, CpMsg.build f.id f.dlc f.data = some m ∧
      s.hwRx env now idx m m stale = s.rx env now idx f.dlc f.id false (f.data ++ stale.drop f.dlc) := by
  obtain ⟨h1, h2, h3⟩ := hf
  obtain ⟨id, dlc, data⟩ := f
  simp only at h1 h2 h3
  subst h3
  have hu : u8 data.length = data.length := by unfold u8; omega
  refine ⟨⟨id, data.length, 0, data ++ (List.replicate 8 0).drop data.length⟩, ?_, ?_⟩
  · have hd : CpMsg.setDlc ⟨0, 0, 0, List.replicate 8 0⟩ data.length = ⟨0, data.length, 0, List.replicate 8 0⟩ := by
      unfold CpMsg.setDlc
      rw [if_neg (by decide), if_pos (by omega), hu]
    unfold CpMsg.build
    dsimp only
    rw [show CpMsg.init (CpMsg.clear ⟨0, 0, 0, List.replicate 8 0⟩) 0 = ⟨0, 0, 0, List.replicate 8 0⟩ from rfl, hd]
    have hi : CpMsg.setIdentifier ⟨0, data.length, 0, List.replicate 8 0⟩ id = ⟨id % 2 ^ 11, data.length, 0, List.replicate 8 0⟩ := by
      unfold CpMsg.setIdentifier
      dsimp only
      rw [if_neg (by decide)]
    rw [hi]
    unfold CpMsg.copy
    rw [if_pos ⟨h2, Nat.le_refl _⟩, Nat.mod_eq_of_lt (by omega), List.take_of_length_le (Nat.le_refl _)]
  · unfold hwRx bufferGetData CpMsg.getStdId CpMsg.getData
    dsimp only
    rw [if_neg (by omega), Nat.mod_eq_of_lt (by omega)]
    have : (List.range data.length).map (fun i => (data ++ (List.replicate 8 0).drop data.length).getD i 0) = data := by
      apply List.ext_getElem
      · simp
      · intro i g1 g2
        simp [List.getElem?_append_left g2, List.getElem?_eq_getElem g2]
    rw [this, show CpMsg.isExtended ⟨id, data.length, 0, data ++ (List.replicate 8 0).drop data.length⟩ = false from by
      unfold CpMsg.isExtended; dsimp only; decide]

/-- a process data frame of two bytes -/
example : Spec.Legal ⟨0x210, 2, [9, 9]⟩ := by decide

/-- C90.  A frame with a 29-bit identifier (bit 0 of the control byte) has no effect but that the search for the baud rate
sees a message, whatever its identifier. -/
theorem C90_extended (env : AEnv) (s : Stack) (now idx : Nat) (m b : CpMsg) (stale : List Byte)
    (h : m.ctrl.getLsbD 0 = true) :
    ∃ s', s.hwRx env now idx m b stale = some s' ∧
      s' = { s with rc := { s.rc with pending := .msg } } := by
  have hx : m.isExtended = true := by
    unfold CpMsg.isExtended
    rw [bne_iff_ne]
    intro h0
    have h1 : (m.ctrl &&& 1#8).getLsbD 0 = true := by rw [BitVec.getLsbD_and, h]; rfl
    rw [h0] at h1
    cases h1
  refine ⟨{ s with rc := { s.rc with pending := .msg } }, ?_, rfl⟩
  unfold hwRx rx
  rw [hx]
  simp only [if_true]
  split <;> rfl

/-- the identifier of a number change, extended -/
example : (CpMsg.mk 0x600 8 1 exChange.data).ctrl.getLsbD 0 = true := by decide

/-- C90.  Of the identifier of a standard frame the eleven low bits count, no others. -/
theorem C90_eleven_bits (env : AEnv) (s : Stack) (now idx : Nat) (m m' b : CpMsg) (stale : List Byte)
    (hc : m.ctrl.getLsbD 0 = m'.ctrl.getLsbD 0) (h : ∀ i < 11, m.id.testBit i = m'.id.testBit i) :
    s.hwRx env now idx m b stale = s.hwRx env now idx m' b stale := by
  have hi : m.getStdId = m'.getStdId := by
    unfold CpMsg.getStdId
    apply Nat.eq_of_testBit_eq
    intro i
    rw [show (2048 : Nat) = 2 ^ 11 from rfl, Nat.testBit_mod_two_pow, Nat.testBit_mod_two_pow]
    by_cases k : i < 11
    · rw [h i k]
    · simp [k]
  have ho : ∀ c : BitVec 8, (c &&& 0x01#8 != 0) = c.getLsbD 0 := by
    have : ∀ c : BitVec 8, (c &&& 0x01#8 != 0) = c.getLsbD 0 := by decide +kernel
    exact this
  have hx : m.isExtended = m'.isExtended := by
    unfold CpMsg.isExtended
    rw [ho, ho, hc]
  unfold hwRx
  rw [hi, hx]

/-- two identifiers that agree in the low bits, with an effect -/
example : (∀ i < 11, (0x7E00020 : Nat).testBit i = (0x020 : Nat).testBit i) ∧
    ((exS.hwRx exA 100 2 ⟨0x7E00020, 8, 0, exChange.data⟩ exChange [0, 0, 0, 0, 0, 0, 0, 0]).map
      fun s => ((s.slv.node.rows 0).nr, (s.slv.node.rows 1).nr)) = some (5, 20) := by decide +kernel

/-- C90, counterexample.  A control message of one byte is completed by what is on the stack; the answer carries one of
these bytes to the bus. -/
theorem C90_counterexample_short_control (x : Byte) :
    (exS.hwRx exA 100 5 exClose exClose [0, x, 0, 0, 0, 0, 0, 0]).map exFrames = some [⟨0x611, 8, [4, x, 0, 0, 0, 0, 0, 0]⟩] := by
  have h : ∀ x : Fin 256, (exS.hwRx exA 100 5 exClose exClose [0, UInt8.ofNat x, 0, 0, 0, 0, 0, 0]).map exFrames =
      some [⟨0x611, 8, [4, UInt8.ofNat x, 0, 0, 0, 0, 0, 0]⟩] := by
    set_option maxRecDepth 10000 in decide +kernel
  have := h ⟨x.toNat, x.toNat_lt⟩
  rwa [UInt8.ofNat_toNat] at this

/-- C90, counterexample.  A message with length code nine (eight bytes on a classical bus) is not copied at all: the port
function of the tunnel is called with nine bytes, the eight that were on the stack and one behind the array. -/
theorem C90_counterexample_length_code_nine :
    (exS.hwRx exA 100 6 exLong exLong [71, 72, 73, 74, 75, 76, 77, 78]).map exApp =
      some [.tnlData [71, 72, 73, 74, 75, 76, 77, 78] 9] := by decide +kernel

/-- C90, counterexample.  The identifier is that of the message handed over, the bytes are those in the buffer: if the
next message is there already, module 5 executes the number change meant for module 9. -/
theorem C90_counterexample_overwritten_buffer :
    (exS.hwRx exA 100 2 exStatus exChange [0, 0, 0, 0, 0, 0, 0, 0]).map
      (fun s => ((s.slv.node.rows 0).nr, (s.slv.node.rows 1).nr)) = some (20, 9) ∧
    (exS.hwRx exA 100 2 exChange exChange [0, 0, 0, 0, 0, 0, 0, 0]).map
      (fun s => ((s.slv.node.rows 0).nr, (s.slv.node.rows 1).nr)) = some (5, 20) := by decide +kernel

/-- C90, counterexample.  A remote frame (bit 2 of the control byte) is handled as if it were a data frame. -/
theorem C90_counterexample_remote (env : AEnv) (s : Stack) (now idx : Nat) (m b : CpMsg) (stale : List Byte) :
    s.hwRx env now idx { m with ctrl := m.ctrl ||| 0x04#8 } b stale = s.hwRx env now idx m b stale := by
  have : CpMsg.isExtended { m with ctrl := m.ctrl ||| 0x04#8 } = CpMsg.isExtended m := by
    unfold CpMsg.isExtended
    show ((m.ctrl ||| 0x04#8) &&& 0x01#8 != 0) = _
    have : (m.ctrl ||| 0x04#8) &&& 0x01#8 = m.ctrl &&& 0x01#8 := by
      apply BitVec.eq_of_getLsbD_eq
      intro i hi
      match i with
      | 0 | 1 | 2 | 3 | 4 | 5 | 6 | 7 => simp
      | n + 8 => omega
    rw [this]
  unfold hwRx
  rw [this]
  rfl

end Stack
end LiCan
