import Verif.Props.Sessions
/-! # Requests without a handler and messages ordered by the application: C104 and C105 -/
namespace LiCan
namespace Spec

/-- the requests of the transfer protocol and the handlers they need -/
def needs : List (Nat × Hnd) :=
  [(0x10, .dlVersion), (0x12, .dlVersion), (0x14, .dlStartReq), (0x16, .dlBlock), (0x17, .dlEnd), (0x50, .ulInfo), (0x1E, .ulStart)]

/-- the commands the stack knows -/
def known : List Nat :=
  [1, 2, 3, 4, 5, 6, 8, 9, 10, 0x10, 0x11, 0x12, 0x13, 0x14, 0x15, 0x16, 0x17, 0x18, 0x19, 0x1A, 0x1B, 0x1C, 0x1D, 0x1E, 0x50]

end Spec
namespace Stack
open Spec
open Slave (at8 byteOf)

variable {env : AEnv}

theorem callHnd_none (s : Stack) (h : Hnd) (c : Component) (hn : s.x.hnd h = none) :
    s.callHnd env h c = (s, { err := E.unknownComponent }) := by
  unfold callHnd; rw [hn]

/-- C104: a request for which the application registered no handler is answered with one message, the termination with
error number UNKNOWN_COMPONENT; the application is not called and no transfer is in progress afterwards.  (A start request
during a transfer and a block end with a wrong number of objects are refused before, see C43 and C42.) -/
theorem C104_no_handler (s : Stack) (nr tp : Nat) (src : List Byte) (ha : Addressed env s nr tp) (h1 : 1 ≤ nr) (h2 : nr < 16000)
    (h : Hnd) (hc : (at8 src 0, h) ∈ needs) (hn : s.x.hnd h = none)
    (hstart : at8 src 0 = 0x14 ∨ at8 src 0 = 0x1E → s.x.busy = false)
    (hblock : at8 src 0 = 0x16 → at8 src 3 * 256 + at8 src 4 = s.x.objs) :
    (s.asyncRx env nr src).2 = 0x5034#16 ∧ Idle (s.asyncRx env nr src).1 ∧
    ∃ ok, logOf (s.asyncRx env nr src).1 = .frame (ctrlFrame nr (termMsg 0x5034)) ok :: logOf s := by
  rw [asyncRx_eq ha]
  have done : ∀ (r : Stack × Err) (s1 : Stack), r = (s1.termination env nr E.unknownComponent, E.unknownComponent) →
      logOf s1 = logOf s → r.2 = 0x5034#16 ∧ Idle r.1 ∧
        ∃ ok, logOf r.1 = .frame (ctrlFrame nr (termMsg 0x5034)) ok :: logOf s := by
    intro r s1 e hl
    subst e
    obtain ⟨hi, ⟨ok, hlog⟩, -⟩ := C45_termination env s1 nr E.unknownComponent h1 h2
    rw [hl] at hlog
    exact ⟨rfl, hi, ok, hlog⟩
  have pre : ∀ s1 : Stack, s1.x.hnd = s.x.hnd → s.x.hnd .dlVersion = none → logOf s1 = logOf s → ∃ s2 : Stack,
      s1.versionPre env nr = (s2.termination env nr E.unknownComponent, E.unknownComponent) ∧ logOf s2 = logOf s := by
    intro s1 hh hv hl
    unfold versionPre
    rw [hh, hv, if_pos rfl]
    dsimp only
    rw [callHnd_none _ _ _ (by rw [hh, hv])]
    exact ⟨_, rfl, hl⟩
  have prei : ∀ s1 : Stack, s1.x.hnd = s.x.hnd → s.x.hnd .ulInfo = none → logOf s1 = logOf s → ∃ s2 : Stack,
      s1.infoPre env nr = (s2.termination env nr E.unknownComponent, E.unknownComponent) ∧ logOf s2 = logOf s := by
    intro s1 hh hv hl
    unfold infoPre
    rw [hh, hv, if_pos rfl]
    dsimp only
    rw [callHnd_none _ _ _ (by rw [hh, hv])]
    exact ⟨_, rfl, hl⟩
  simp only [needs, List.mem_cons, Prod.mk.injEq, List.not_mem_nil, or_false] at hc
  unfold command
  rcases hc with ⟨e, rfl⟩ | ⟨e, rfl⟩ | ⟨e, rfl⟩ | ⟨e, rfl⟩ | ⟨e, rfl⟩ | ⟨e, rfl⟩ | ⟨e, rfl⟩ <;> rw [e] <;> simp only
  · obtain ⟨s2, e2, l2⟩ := pre (s.setX fun x => { x with vcomp := { x.vcomp with index := b8 src 1, name := shortName src } })
      rfl hn rfl
    exact done _ s2 e2 l2
  · obtain ⟨s2, e2, l2⟩ := pre (s.setX fun x => { x with vcomp := { x.vcomp with name := x.vcomp.name.take 6 ++ slice src 2 2 } })
      rfl hn rfl
    exact done _ s2 e2 l2
  · have hb := hstart (.inl e)
    unfold dlStart2
    rw [hb, if_neg (by decide)]
    dsimp only
    rw [callHnd_none _ _ _ (by exact hn)]
    exact done _ _ rfl rfl
  · have hb := hblock e
    unfold dlBlockEnd
    dsimp only
    rw [if_pos hb]
    split
    · rw [callHnd_none _ _ _ (by exact hn)]
      exact done _ _ rfl rfl
    · rw [callHnd_none _ _ _ (by exact hn)]
      exact done _ _ rfl rfl
  · unfold dlEnd
    rw [callHnd_none _ _ _ (by exact hn)]
    exact done _ _ rfl rfl
  · obtain ⟨s2, e2, l2⟩ := prei (s.setX fun x => { x with comp := { x.comp with index := b8 src 1, name := shortName src } })
      rfl hn rfl
    exact done _ s2 e2 l2
  · have hb := hstart (.inr e)
    unfold ulStart2
    rw [hb, if_neg (by decide)]
    dsimp only
    rw [callHnd_none _ _ _ (by exact hn)]
    exact done _ _ rfl rfl

/-- C104: the same for a start ordered by the application. -/
theorem C104_no_start_handler (s : Stack) (c : Component) (h1 : 1 ≤ c.nr) (h2 : c.nr < 16000) (hn : s.x.hnd .dlStart = none) :
    (s.dlStart env c).2 = 0x5034#16 ∧ Idle (s.dlStart env c).1 ∧
    ∃ ok, logOf (s.dlStart env c).1 = .frame (ctrlFrame c.nr (termMsg 0x5034)) ok :: logOf s := by
  unfold dlStart
  dsimp only
  rw [callHnd_none _ _ _ (by exact hn)]
  obtain ⟨hi, hl, -⟩ := C45_termination env (s.setX fun x => { x with busy := true }) c.nr E.unknownComponent h1 h2
  exact ⟨rfl, hi, hl⟩

/-- C104: the acknowledge of an upload block without a handler changes nothing and sends nothing. -/
theorem C104_no_ack_handler (s : Stack) (nr tp : Nat) (src : List Byte) (ha : Addressed env s nr tp) (hc : at8 src 0 = 0x1A)
    (hn : s.x.hnd .ulAck = none) : s.asyncRx env nr src = (s, 0x5034#16) := by
  rw [asyncRx_eq ha]
  unfold command
  rw [hc]
  simp only
  unfold ulBlockAckn
  rw [callHnd_none _ _ _ hn]

/-- seven requests to a stack without handlers, and a stack that misses only the upload acknowledge -/
example : Addressed exA { exS with x := {} } 5 0 ∧ (∀ h, (({} : XLoad).hnd h) = none) ∧
    (needs.map fun p => exFrames (asyncRx exA { exS with x := {} } 5 [UInt8.ofNat p.1, 0, 0, 0, 0, 0, 0, 0]).1) =
      List.replicate 7 [ctrlFrame 5 (termMsg 0x5034)] := by
  refine ⟨by decide +kernel, fun _ => rfl, by decide +kernel⟩

/-- C105: a command that is not part of the protocol changes nothing and sends nothing; the error is UNKNOWN_COMMAND. -/
theorem C105_unknown_command (s : Stack) (nr tp : Nat) (src : List Byte) (ha : Addressed env s nr tp) (hc : at8 src 0 ∉ known) :
    s.asyncRx env nr src = (s, 0x5064#16) := by
  rw [asyncRx_eq ha]
  unfold command
  simp only [known, List.mem_cons, List.not_mem_nil, or_false, not_or] at hc
  split <;> first | rfl | (exfalso; omega)

example : at8 [0x20, 1, 2, 3, 4, 5, 6, 7] 0 ∉ known := by decide

/-- C105: the functions by which the application answers send exactly one message, with the arguments of the call, most
significant byte first, and nothing else of the node changes; what changes in the transfer: the start acknowledge empties
the buffer and the counters, the end acknowledge and the termination release the transfer. -/
theorem C105_messages (s : Stack) (nr : Nat) (h1 : 1 ≤ nr) (h2 : nr < 16000) :
    (∀ m d, ∃ ok, logOf (s.startAckn env nr m d) = .frame (ctrlFrame nr (0x19 :: (bytes 2 m ++ [d, 0, 0, 0, 0]))) ok :: logOf s ∧
      (s.startAckn env nr m d).x = { s.x with objs := 0, bytes := 0, buf := { s.x.buf with read := 0, write := 0, nr := 0 } }) ∧
    (∀ i c d, ∃ ok, logOf (s.versionAnswer env nr i c d) = .frame (ctrlFrame nr (0x18 :: i :: (bytes 2 c ++ bytes 4 d))) ok :: logOf s ∧
      (s.versionAnswer env nr i c d).x = s.x) ∧
    (∀ i z, ∃ ok, logOf (s.infoAnswer env nr i z) = .frame (ctrlFrame nr (0x53 :: i :: (bytes 4 z ++ [0, 0]))) ok :: logOf s ∧
      (s.infoAnswer env nr i z).x = s.x) ∧
    (∃ ok, logOf (s.endAckn env nr) = .frame (ctrlFrame nr [0x1B, 0, 0, 0, 0, 0, 0, 0]) ok :: logOf s ∧ Idle (s.endAckn env nr) ∧
      (s.endAckn env nr).x.buf = s.x.buf) ∧
    (∃ ok, logOf (s.uloadEnd env nr) = .frame (ctrlFrame nr [0x17, 0, 0, 0, 0, 0, 0, 0]) ok :: logOf s ∧
      (s.uloadEnd env nr).x = s.x) ∧
    (∀ e : Err, ∃ ok, logOf (s.termination env nr e) = .frame (ctrlFrame nr (termMsg e.toNat)) ok :: logOf s ∧
      Idle (s.termination env nr e) ∧ (s.termination env nr e).x.buf = s.x.buf) := by
  refine ⟨fun m d => ?_, fun i c d => ?_, fun i z => ?_, ?_, ?_, fun e => ?_⟩
  · rw [bytes_two]
    exact ⟨_, ctrlTx_log env (s.setX fun x => { x with objs := 0, bytes := 0, buf := { x.buf with read := 0, write := 0, nr := 0 } }) nr _ h1 h2, rfl⟩
  · rw [bytes_two, bytes_four]
    exact ⟨_, ctrlTx_log env s nr _ h1 h2, rfl⟩
  · rw [bytes_four]
    exact ⟨_, ctrlTx_log env s nr _ h1 h2, rfl⟩
  · exact ⟨_, ctrlTx_log env (s.setX fun x => { x with comp := { x.comp with name := noName } }) nr _ h1 h2, ⟨rfl, rfl⟩, rfl⟩
  · exact ⟨_, ctrlTx_log env s nr _ h1 h2, rfl⟩
  · obtain ⟨hi, ⟨ok, hl⟩, hb, -⟩ := C45_termination env s nr e h1 h2
    exact ⟨ok, hl, hi, hb⟩

/-- the messages on the bus -/
example : exFrames (exS.startAckn exA 5 0x0102 7) = [⟨0x611, 8, [0x19, 1, 2, 7, 0, 0, 0, 0]⟩] ∧
    exFrames (exS.infoAnswer exA 5 3 0x01020304) = [⟨0x611, 8, [0x53, 3, 1, 2, 3, 4, 0, 0]⟩] := by decide +kernel

end Stack
end LiCan
