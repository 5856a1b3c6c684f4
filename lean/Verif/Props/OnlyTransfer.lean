import Verif.Model.StackRun
import Verif.Props.Transfer
/-! # Only transfer messages and transfer functions change a transfer (C115) -/
namespace LiCan

namespace Spec

/-- commands of asynchronous control messages that belong to downloads and uploads -/
def transferCodes : List Nat :=
  [0x10, 0x11, 0x12, 0x13, 0x14, 0x15, 0x16, 0x17, 0x1A, 0x1B, 0x1C, 0x1D, 0x1E, 0x50]

/-- an input that has nothing to do with a transfer: no transfer message in a control object (as the objects are after the
synchronous and system handlers have seen the frame), no transfer function called by the
application, and no start of the node that acknowledges a download (mode 3 of the transfer info) -/
def Unrelated (env : AEnv) (s : Stack) : SIn → Prop
  | .rx now obj dlc id _ data =>
    (∀ b, data.head? = some b → b.toNat ∉ transferCodes) ∨
    ∀ v, s.slv.handlerRx env.toEnv now obj dlc id data = some v → Node.bit obj &&& v.node.hw.ctrlMask = 0
  | .start _ => s.info.d.mode ≠ 3
  | .hnd .. | .dlStart _ | .act _ | .ulData .. => False
  | _ => True

/-- a history of such inputs from `s` on -/
def AllUnrelated (env : AEnv) : Stack → List SIn → Prop
  | _, [] => True
  | s, i :: is => Unrelated env s i ∧ ∀ s', s.step env i = some s' → AllUnrelated env s' is

end Spec
open Spec

namespace Stack

/-- the same transfer -/
def SameX (s s' : Stack) : Prop := s'.x = s.x

theorem SameX.trans {a b c : Stack} (h : SameX a b) (h' : SameX b c) : SameX a c := Eq.trans h' h

/-- the port functions of the tunnel do not call transfer functions -/
def PortsApart (env : AEnv) : Prop := ∀ k c, (∀ h f comp, c ≠ .hnd h f comp) → (env.reply k c).acts = []

variable {env : AEnv}

theorem nodeMode_x (s : Stack) (m : Mode) : SameX s (s.nodeMode env m).1 := rfl
theorem baudRate_x (s : Stack) (b : Nat) : SameX s (s.baudRate env b).1 := rfl
theorem notify_x (s : Stack) (f : Option Nat) (c : Nat → ACall) : SameX s (s.notify f c) := by
  unfold notify; split <;> rfl
theorem reportUnaware_x (s : Stack) (e : Option Err) : SameX s (s.reportUnaware env e) := by
  unfold reportUnaware; split
  · rfl
  · split <;> rfl

theorem nextBaud_x (s : Stack) (now : Nat) : SameX s (s.nextBaud env now) := by
  unfold nextBaud; simp only
  generalize rcTab.getD _ 0 = b
  generalize hr : (s.nodeMode env .stopped).1.baudRate env b = r
  have h : SameX s r.1 := by rw [← hr]; rfl
  by_cases e : r.2 = E.ok
  · simp only [e, if_true]; exact h
  · simp only [e, if_false]; exact h

theorem rcOn_x (s : Stack) (now : Nat) (first : Bool) : SameX s (s.rcOn env now first) := by
  unfold rcOn; simp only
  cases first
  · simp only [Bool.false_eq_true, if_false]
    have h := nextBaud_x (env := env) ({ s with lcsa := .reconnect }.setR fun c => { c with bit0 := 0 }) now
    generalize nextBaud env _ now = t at *
    exact h
  · rfl

theorem rcDone_x (s : Stack) (b : Nat) : SameX s (s.rcDone env b) := by
  unfold rcDone
  split
  · exact SameX.trans (reportUnaware_x (env := env) { s with lcsa := .init } _) (notify_x _ _ _)
  · exact SameX.trans (reportUnaware_x (env := env) { s with lcsa := .running } _) (notify_x _ _ _)
  · exact SameX.trans (reportUnaware_x (env := env) { s with lcsa := .running } _) (notify_x _ _ _)
  · exact notify_x { s with lcsa := .init } _ _
  · rfl

theorem rcOff_x (s : Stack) (now : Nat) : SameX s (s.rcOff env now) := by
  unfold rcOff; simp only
  generalize hA : ((s.setR fun c => { c with process := false }).nodeMode env .stopped).1 = A
  have ha : SameX s A := by rw [← hA]; exact nodeMode_x (s.setR fun c => { c with process := false }) _
  clear hA
  generalize hB : A.baudRate env s.rc.back = B
  have hb : SameX s B.1 := by rw [← hB]; exact ha.trans (baudRate_x _ _)
  clear hB
  generalize hC : (if B.2 = E.ok then B.1.nodeMode env .operational else B) = C
  have hc : SameX s C.1 := by
    rw [← hC]; split
    · exact hb.trans (nodeMode_x _ _)
    · exact hb
  clear hC
  by_cases e : C.2 = E.ok
  · simp only [e, if_true]
    exact SameX.trans (b := { C.1 with lcsa := .running }.setR fun c => { c with state := .off, nr := u16 (c.nr + 1) }) hc
      (rcDone_x _ _)
  · simp only [e, if_false]; exact hc

theorem rcStartup_x (s : Stack) (now : Nat) : SameX s (s.rcStartup env now) := by
  unfold rcStartup; simp only
  split
  · refine SameX.trans (notify_x s s.rc.suStart .suStart) ?_
    generalize s.notify s.rc.suStart .suStart = t
    exact rcOn_x (t.setR _) _ _
  · rfl

theorem rcError_x (s : Stack) (now : Nat) (c : RCause) : SameX s (s.rcError env now c) := by
  unfold rcError; simp only
  split
  · refine SameX.trans (notify_x s s.rc.onStart .onStart) ?_
    generalize s.notify s.rc.onStart .onStart = t
    exact rcOn_x (((t.nodeMode env .stopped).1.nodeMode env .listen).1.setR _) _ _
  · rfl

theorem rcSwitch_x (s : Stack) (now : Nat) : SameX s (s.rcSwitch env now) := by
  unfold rcSwitch; split
  · exact nextBaud_x s now
  · rfl

theorem rcProcess_x (s : Stack) (now : Nat) (p : Pending) (lec : Lec) : SameX s (s.rcProcess env now p lec) := by
  unfold rcProcess
  split
  · rfl
  · split
    · split
      · exact rcOff_x (s.setR _) _
      · split
        · exact rcOff_x (s.setR _) _
        · split
          · exact rcOn_x (s.setR _) _ _
          · split
            · exact nextBaud_x _ _
            · rfl
    · split
      · exact rcOff_x _ _
      · split
        · exact rcSwitch_x _ _
        · split
          · exact rcOff_x _ _
          · simp only; split
            · exact rcOff_x (s.setR _) _
            · rfl
          · split
            · exact rcOff_x _ _
            · rfl
          · exact rcSwitch_x (s.setR _) _
    · simp only; split <;> rfl
    · rfl

theorem hwError_x (s : Stack) (now : Nat) (bus : BusState) (lec : Lec) : SameX s (s.hwError env now bus lec) := by
  have h1 : SameX s (s.hwBusOff env now bus lec) := by
    unfold hwBusOff; split
    · exact rcError_x ((s.nodeMode env .stopped).1.nodeMode env .listen).1 _ _
    · rfl
  have h2 : ∀ t : Stack, SameX t (t.hwPassive env now bus) := by
    intro t
    unfold hwPassive; split
    · exact rcError_x { t with slv := { t.slv with link := (Slave.drvMode env.toEnv t.slv.link .listen).1 } } _ _
    · rfl
  unfold hwError; simp only
  generalize hA : (if (bus ≠ .active ∨ lec ≠ .none) ∧ s.rc.state = .off then (s.hwBusOff env now bus lec).hwPassive env now bus
    else s) = A
  have ha : SameX s A := by
    rw [← hA]; split
    · exact h1.trans (h2 _)
    · rfl
  clear hA
  split
  · exact ha.trans (rcProcess_x _ _ _ _)
  · exact ha

/-- the same transfer and the same control objects -/
def SameXM (s s' : Stack) : Prop := s'.x = s.x ∧ s'.slv.node.hw = s.slv.node.hw

theorem report_hw (env : Env) (n : Node) (e : Err) : (n.report env e).hw = n.hw := by
  unfold Node.report; split <;> rfl

theorem handleQ_x (s : Stack) : SameXM s (handleQ env s).1 := by
  unfold handleQ; split
  · simp only; split <;> exact ⟨rfl, rfl⟩
  · exact ⟨rfl, rfl⟩
theorem handlerTx_x (s : Stack) : SameXM s (handlerTx env s) := by
  unfold handlerTx; split
  · split
    · have h := handleQ_x (env := env) s
      generalize handleQ env s = r at h
      exact ⟨h.1, (report_hw env.toEnv r.1.slv.node r.2).trans h.2⟩
    · exact ⟨rfl, rfl⟩
  · exact ⟨rfl, rfl⟩
theorem enqueue_x (s : Stack) (nr dlc : Nat) (src : List Byte) : SameXM s (s.enqueue env nr dlc src).1 := by
  unfold enqueue; split
  · exact ⟨rfl, rfl⟩
  · split
    · exact ⟨rfl, rfl⟩
    · exact handlerTx_x { s with q := _ }
theorem processTx_x (s : Stack) (now : Nat) : SameXM s (s.processTx env now).1 := by
  unfold processTx; split
  · exact ⟨rfl, rfl⟩
  · split
    · split
      · simp only; split
        · exact enqueue_x s _ _ _
        · exact enqueue_x s _ _ _
      · exact ⟨rfl, rfl⟩
    · exact ⟨rfl, rfl⟩
theorem putcRetry_x (s : Stack) : SameX s (s.putcRetry env).1 := by
  unfold putcRetry; simp only; split
  · exact (enqueue_x s _ _ _).1
  · exact (enqueue_x s _ _ _).1
theorem putc_x (s : Stack) (x : Byte) : SameX s (s.putc env x).1 := by
  unfold putc; split
  · rfl
  · split
    · simp only; split
      · exact putcRetry_x ((s.setT _).setT _)
      · rfl
    · rfl

theorem callPort_x (hp : PortsApart env) (s : Stack) (c : ACall) (hc : ∀ h f comp, c ≠ .hnd h f comp) :
    SameX s (s.callPort env c).1 := by
  unfold callPort callApp; simp only
  rw [hp _ c hc]
  rfl

theorem tnlOpen_x (hp : PortsApart env) (s : Stack) (nr : Nat) (src : List Byte) : SameX s (s.tnlOpen env nr src).1 := by
  unfold tnlOpen; split
  · have h := callPort_x hp s .tnlOpen (by intros; simp)
    generalize s.callPort env .tnlOpen = r at h
    simp only; split
    · split <;> exact h
    · exact h
  · rfl
theorem tnlCloseReq_x (hp : PortsApart env) (s : Stack) (nr : Nat) (src : List Byte) : SameX s (s.tnlCloseReq env nr src).1 := by
  unfold tnlCloseReq
  have h := callPort_x hp s .tnlFree (by intros; simp)
  generalize s.callPort env .tnlFree = r at h
  simp only; split <;> exact h
theorem tnlReset_x (hp : PortsApart env) (s : Stack) : SameX s (s.tnlReset env).1 := by
  unfold tnlReset; split
  · have h := callPort_x hp s .tnlClear (by intros; simp)
    generalize s.callPort env .tnlClear = r at h
    simp only; split
    · exact h.trans (callPort_x hp _ .tnlXon (by intros; simp))
    · exact h
  · rfl
theorem tnlCloseAck_x (hp : PortsApart env) (s : Stack) (nr : Nat) (src : List Byte) : SameX s (s.tnlCloseAck env nr src).1 := by
  unfold tnlCloseAck; split
  · exact callPort_x hp s .tnlFree (by intros; simp)
  · rfl
theorem tnlX_x (hp : PortsApart env) (s : Stack) (src : List Byte) (c : ACall) (hc : ∀ h f comp, c ≠ .hnd h f comp) :
    SameX s (s.tnlX env src c) := by
  unfold tnlX; split
  · exact callPort_x hp s c hc
  · rfl

theorem command_x (hp : PortsApart env) (s : Stack) (nr tp : Nat) (src : List Byte) (h : Slave.at8 src 0 ∉ transferCodes) :
    SameX s (s.command env nr tp src).1 := by
  unfold command
  split
  all_goals first
    | (rename_i e; rw [e] at h; exact absurd (by decide) h)
    | rfl
    | exact tnlX_x hp _ _ _ (by intros; simp)
    | exact tnlOpen_x hp _ _ _
    | exact tnlCloseReq_x hp _ _ _
    | exact tnlReset_x hp _
    | exact tnlCloseAck_x hp _ _ _
    | (show SameX s (s.tnlCloseDeny nr src); unfold tnlCloseDeny; split <;> rfl)

theorem ctrlRx_x (hp : PortsApart env) (s : Stack) (obj id : Nat) (src : List Byte)
    (h : Node.bit obj &&& s.slv.node.hw.ctrlMask = 0 ∨ Slave.at8 src 0 ∉ transferCodes) : SameX s (s.ctrlRx env obj id src) := by
  unfold ctrlRx
  split
  · next hm =>
    rcases h with h | h
    · exact absurd h hm
    · have key : ∀ (ks : List Nat) (t : Stack), SameX t (ks.foldl (ctrlStep env obj (asyncNrOfId id) src) t) := by
        intro ks
        induction ks with
        | nil => intro t; rfl
        | cons k ks ih =>
          intro t
          refine SameX.trans ?_ (ih _)
          unfold ctrlStep
          split
          · show SameX t (t.asyncRx env _ src).1
            unfold asyncRx
            split
            · rfl
            · split
              · rfl
              · exact command_x hp _ _ _ _ h
          · rfl
      exact key _ s
  · rfl

theorem baudRate_mode (s : Stack) (b : Nat) : (s.baudRate env b).1.info.d.mode = s.info.d.mode := by
  show (if _ then s.info else s.info.setBaud env.crc _).d.mode = _
  split <;> rfl

theorem rcStartup_mode (s : Stack) (now : Nat) : (s.rcStartup env now).info.d.mode = s.info.d.mode := by
  unfold rcStartup; simp only
  split
  · have h : (s.notify s.rc.suStart .suStart).info = s.info := by unfold notify; split <;> rfl
    generalize s.notify s.rc.suStart .suStart = t at h
    show t.info.d.mode = _
    rw [h]
  · rfl

theorem startAck_x {s t : Stack} (h : SameX s t) (hm : t.info.d.mode ≠ 3) : SameX s { t.startAck env with lcsa := .running } := by
  unfold startAck
  rw [if_neg hm]
  exact h

theorem start_x (s : Stack) (now : Nat) (h : s.info.d.mode ≠ 3) : SameX s (s.start env now).1 := by
  unfold start
  simp only
  by_cases hd : s.lcsa = .download
  · simp only [hd, if_true]
    have hb := baudRate_mode (env := env) ((s.setR fun c => { c with state := .off }).nodeMode env .stopped).1
      ((s.setR fun c => { c with state := .off }).nodeMode env .stopped).1.slv.link.startup
    have hx := baudRate_x (env := env) ((s.setR fun c => { c with state := .off }).nodeMode env .stopped).1
      ((s.setR fun c => { c with state := .off }).nodeMode env .stopped).1.slv.link.startup
    generalize (((s.setR fun c => { c with state := .off }).nodeMode env .stopped).1.baudRate env
      ((s.setR fun c => { c with state := .off }).nodeMode env .stopped).1.slv.link.startup).1 = t at hb hx
    have hb : t.info.d.mode ≠ 3 := by rw [hb]; exact h
    have hx : SameX s t := hx
    have hy : SameX s ((t.setR fun c => { c with cause := .download }).nodeMode env .operational).1 := hx
    have hz : ((t.setR fun c => { c with cause := .download }).nodeMode env .operational).1.info.d.mode ≠ 3 := hb
    generalize (t.setR fun c => { c with cause := .download }).nodeMode env .operational = r at hy hz
    by_cases e : r.2 = E.ok
    · simp only [e, if_true]
      exact startAck_x (t := { r.1 with lcsa := .running }) hy hz
    · simp only [e, if_false]; exact hy
  · simp only [hd, if_false]
    have hb := baudRate_mode (env := env) ((s.setR fun c => { c with state := .startup }).nodeMode env .stopped).1
      ((s.setR fun c => { c with state := .startup }).nodeMode env .stopped).1.slv.link.startup
    have hx := baudRate_x (env := env) ((s.setR fun c => { c with state := .startup }).nodeMode env .stopped).1
      ((s.setR fun c => { c with state := .startup }).nodeMode env .stopped).1.slv.link.startup
    generalize (((s.setR fun c => { c with state := .startup }).nodeMode env .stopped).1.baudRate env
      ((s.setR fun c => { c with state := .startup }).nodeMode env .stopped).1.slv.link.startup).1 = t at hb hx
    have hb : t.info.d.mode ≠ 3 := by rw [hb]; exact h
    have hx : SameX s t := hx
    have hy : SameX s ((t.rcStartup env now).nodeMode env .listen).1 := hx.trans (rcStartup_x t now)
    have hz : ((t.rcStartup env now).nodeMode env .listen).1.info.d.mode ≠ 3 := by
      show (t.rcStartup env now).info.d.mode ≠ 3
      rw [rcStartup_mode]; exact hb
    generalize (t.rcStartup env now).nodeMode env .listen = r at hy hz
    by_cases e : r.2 = E.ok
    · simp only [e, if_true]; exact startAck_x hy hz
    · simp only [e, if_false]; exact hy

theorem setSlv_x (s : Stack) (v : Slave) : SameX s (s.setSlv env v) := rfl
theorem setNode_x (s : Stack) (n : Node) : SameX s (s.setNode n) := rfl

theorem init_x (s : Stack) (baud : Nat) : SameX s (s.init env baud).1 := by
  unfold init
  simp only
  generalize s.info.init env.crc = i
  have h1 : SameX s (if i.2 ≠ E.ok ∧ env.sysErr = true then
    Stack.setNode { s with info := i.1 } { s.slv.node with
      errq := (s.slv.node.errq.sendFull env.qSize (i.2.setWidth 32) 0 10 7 2 (s.slv.node.rows 0).nr).1 }
    else { s with info := i.1 }) := by
    split
    · exact SameX.trans (b := { s with info := i.1 }) rfl (setNode_x _ _)
    · rfl
  generalize (if i.2 ≠ E.ok ∧ env.sysErr = true then _ else _ : Stack) = s1 at *
  generalize hs2 : (if s1.info.d.mode = 3 ∨ s1.info.d.mode = 2 ∨ s1.info.d.mode = 0 then { s1 with lcsa := LState.download } else s1) = s2
  have h2 : SameX s s2 := by
    rw [← hs2]; split
    · exact h1
    · exact h1
  exact h2.trans (setSlv_x _ _)

theorem step_x (hp : PortsApart env) (s s' : Stack) (i : SIn) (hu : Unrelated env s i) (h : s.step env i = some s') :
    SameX s s' := by
  cases i with
  | rx now obj dlc id ext data =>
    simp only [step] at h
    unfold rx at h
    simp only at h
    split at h
    · cases h; rfl
    · split at h
      · cases h; rfl
      · rw [Option.map_eq_some_iff] at h
        obtain ⟨v, hv, rfl⟩ := h
        have h0 : SameX s (((s.setR fun c => { c with pending := .msg }).setSlv env v).processTx env now).1 :=
          (processTx_x ((s.setR fun c => { c with pending := .msg }).setSlv env v) now).1
        have hm : (((s.setR fun c => { c with pending := .msg }).setSlv env v).processTx env now).1.slv.node.hw.ctrlMask =
            v.node.hw.ctrlMask :=
          congrArg _ (processTx_x (env := env) ((s.setR fun c => { c with pending := .msg }).setSlv env v) now).2
        generalize (((s.setR fun c => { c with pending := .msg }).setSlv env v).processTx env now).1 = t at h0 hm
        have h1 := ctrlRx_x hp t obj id data (by
          rcases hu with hu | hu
          · refine .inr ?_
            cases data with
            | nil => decide
            | cons b bs => exact hu b rfl
          · refine .inl ?_
            rw [hm]; exact hu v hv)
        refine SameX.trans (h0.trans h1) ?_
        unfold dataRx
        split
        · exact callPort_x hp _ _ (by intros; simp)
        · rfl
  | process now bus lec =>
    rw [← Option.some.inj h]
    exact SameX.trans (hwError_x { s with slv := s.slv.trigger env.toEnv now } now bus lec) (processTx_x _ _).1
  | init baud =>
    rw [← Option.some.inj h]
    exact init_x s baud
  | start now => rw [← Option.some.inj h]; exact start_x s now hu
  | setState l => cases h; rfl
  | setBaud b => cases h; rfl
  | api i =>
    simp only [step] at h
    split at h
    · rw [Option.map_eq_some_iff] at h
      obtain ⟨v, -, rfl⟩ := h; rfl
    · cases h; rfl
  | hnd a f => exact hu.elim
  | dlStart c => exact hu.elim
  | act a => exact hu.elim
  | ulData f d => exact hu.elim
  | putc x => cases h; exact putc_x s x
  | retry =>
    cases h
    split
    · rfl
    · exact putcRetry_x s
  | xonOff c => cases h; unfold xonOff; split <;> rfl
  | shutdown => cases h; unfold tnlShutdown; split <;> rfl
  | enqueue nr dlc src => cases h; exact (enqueue_x s nr dlc src).1
  | info o => cases h; rfl
  | rcCb k f => cases h; unfold setRcCb; split <;> split <;> rfl

/-- C115: nothing but transfer messages and transfer functions changes a transfer: over any history of other inputs - process
data, system messages, tunnel messages and data, ticks of any size, errors and searches, a second initialisation - the transfer
stays as it is, with buffer, counters, component and handlers.  In particular it does not end by itself. -/
theorem C115_only_transfer (hp : PortsApart env) (is : List SIn) : ∀ s s' : Stack, AllUnrelated env s is →
    run env s is = some s' → s'.x = s.x := by
  induction is with
  | nil => intro s s' _ h; cases h; rfl
  | cons i is ih =>
    intro s s' hu h
    rw [run, Option.bind_eq_some_iff] at h
    obtain ⟨t, ht, hr⟩ := h
    exact (ih t s' (hu.2 t ht) hr).trans (step_x hp s t i hu.1 ht)

/-- C115: a transfer given up by its master occupies the stack for ever: whatever else has happened since, and however long ago it
was, the next start request is answered with DLOAD_IN_PROGRESS. -/
theorem C115_no_timeout (hp : PortsApart env) (is : List SIn) (s s' : Stack) (hu : AllUnrelated env s is)
    (h : run env s is = some s') (hb : s.x.busy = true) (nr tp : Nat) (src : List Byte) (ha : Addressed env s' nr tp)
    (h1 : 1 ≤ nr) (h2 : nr < 16000) (hc : Slave.at8 src 0 = 0x14 ∨ Slave.at8 src 0 = 0x1E) :
    (s'.asyncRx env nr src).2 = 0x5035#16 ∧
    ∃ ok, logOf (s'.asyncRx env nr src).1 = .frame (ctrlFrame nr (termMsg 0x5035)) ok :: logOf s' := by
  have hx := C115_only_transfer hp is s s' hu h
  have := (C43_refused_partial env s' nr tp src ha (by rw [hx]; exact hb) h1 h2).2 hc
  exact ⟨this.1, this.2.1⟩

/-- C115: a download is started, then the master is silent: ticks up to the end of the counter, a tunnel reset and a process request
do not change it -/
example :
    let s := recv exA 5 exS [exStart1, exStart2]
    let is : List SIn := [.process 100 .active .none, .rx 200 7 8 0x5FD false [0x08, 0, 0, 0, 0, 0, 0, 0], .process 4294967295 .active .none]
    PortsApart exA ∧ s.x.busy = true ∧ AllUnrelated exA s is ∧ (run exA s is).isSome = true ∧
    (run exA s is).map (fun s => (s.x.busy, (s.asyncRx exA 5 exStart2).2)) = some (true, 0x5035#16) := by
  refine ⟨?_, by decide +kernel, ⟨trivial, fun _ _ => ⟨.inl (by intro b hb; cases hb; decide), fun _ _ => ⟨trivial, fun _ _ => trivial⟩⟩⟩,
    by decide +kernel, by decide +kernel⟩
  intro k c hc
  cases c with
  | hnd h f comp => exact absurd rfl (hc h f comp)
  | _ => rfl

end Stack
end LiCan
