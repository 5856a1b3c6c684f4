import Verif.Lemmas.Legal
import Verif.Model.StackRun
/-! # Frames of the whole stack are legal -/
namespace LiCan
open Spec
namespace Stack
open Node

/-- actions of a handler that use numbers up to 128 -/
def ActL : Act → Prop
  | .startAckn nr .. => nr ≤ 128
  | .endAckn nr => nr ≤ 128
  | .termination nr _ => nr ≤ 128
  | .versionAnswer nr .. => nr ≤ 128
  | .infoAnswer nr .. => nr ≤ 128
  | .uloadEnd nr => nr ≤ 128
  | .edit f => ∀ c, c.nr ≤ 128 → (f c).nr ≤ 128
  | _ => True

/-- the application -/
structure AEnvL (env : AEnv) : Prop where
  envl : EnvL env.toEnv
  acts : ∀ k c, ∀ a ∈ (env.reply k c).acts, ActL a

/-- the invariant -/
structure SL (env : AEnv) (s : Stack) : Prop where
  node : NodeL env.toEnv s.slv.node
  comp : s.x.comp.nr ≤ 128
  own : s.tnl.own ≤ 128
  q : ∀ k, Legal (s.q.buf k)
  info : s.info.d.comp.nr ≤ 128

variable {env : AEnv}

/-- only the node changed -/
theorem SL.setNode {s : Stack} (h : SL env s) {n : Node} (hn : NodeL env.toEnv n) : SL env (s.setNode n) :=
  ⟨hn, h.comp, h.own, h.q, h.info⟩

theorem SL.setX {s : Stack} (h : SL env s) {f : XLoad → XLoad} (hf : (f s.x).comp.nr ≤ 128) : SL env (s.setX f) :=
  ⟨h.node, hf, h.own, h.q, h.info⟩

theorem SL.setT {s : Stack} (h : SL env s) {f : Tunnel → Tunnel} (hf : (f s.tnl).own ≤ 128) : SL env (s.setT f) :=
  ⟨h.node, h.comp, hf, h.q, h.info⟩

theorem SL.setR {s : Stack} (h : SL env s) {f : Recon → Recon} : SL env (s.setR f) :=
  ⟨h.node, h.comp, h.own, h.q, h.info⟩

theorem send_legal {n : Node} (h : NodeL env.toEnv n) {f : Frame} (hf : Legal f) : NodeL env.toEnv (n.send env.toEnv f).1 :=
  ⟨h.1.light (.send ..), h.2.cons rfl (fun g ok e => by injection e with e _; rw [← e]; exact hf)⟩

theorem SL.ctrlTx {s : Stack} (h : SL env s) {nr : Nat} (hn : nr ≤ 128) {d : List Byte} (hd : d.length = 8) : SL env (s.ctrlTx env nr d) :=
  h.setNode (send_legal h.node ⟨by show asyncCtrlTxId nr < 2048; unfold asyncCtrlTxId idOf; omega, Nat.le_refl 8, hd⟩)

theorem SL.logCall {s : Stack} (h : SL env s) (c : ACall) : SL env (s.logCall c) :=
  h.setNode (h.node.log1 _ (fun f ok e => by cases e))

theorem SL.startAckn {s : Stack} (h : SL env s) {nr : Nat} (hn : nr ≤ 128) (m : Nat) (d : Byte) : SL env (s.startAckn env nr m d) :=
  SL.ctrlTx (by exact ⟨h.node, h.comp, h.own, h.q, h.info⟩) hn rfl

theorem SL.endAckn {s : Stack} (h : SL env s) {nr : Nat} (hn : nr ≤ 128) : SL env (s.endAckn env nr) := by
  have h1 : SL env ((s.setX fun x => { x with comp := { x.comp with name := noName } }).ctrlTx env nr [0x1B, 0, 0, 0, 0, 0, 0, 0]) :=
    SL.ctrlTx (by exact ⟨h.node, h.comp, h.own, h.q, h.info⟩) hn rfl
  exact (by exact ⟨h1.node, h1.comp, h1.own, h1.q, h1.info⟩)

theorem SL.termination {s : Stack} (h : SL env s) {nr : Nat} (hn : nr ≤ 128) (e : Err) : SL env (s.termination env nr e) := by
  have h1 : SL env ((s.setX fun x => { x with comp := { x.comp with name := noName } }).ctrlTx env nr (termBytes e)) :=
    SL.ctrlTx (by exact ⟨h.node, h.comp, h.own, h.q, h.info⟩) hn rfl
  exact (by exact ⟨h1.node, h1.comp, h1.own, h1.q, h1.info⟩)

theorem SL.act {s : Stack} (h : SL env s) (a : Act) (ha : ActL a) : SL env (s.act env a) := by
  cases a with
  | startAckn nr m d => exact h.startAckn ha m d
  | endAckn nr => exact h.endAckn ha
  | termination nr e => exact h.termination ha e
  | versionAnswer nr i c d => exact h.ctrlTx ha rfl
  | infoAnswer nr i z => exact h.ctrlTx ha rfl
  | uloadEnd nr => exact h.ctrlTx ha rfl
  | get => exact SL.logCall (by exact ⟨h.node, h.comp, h.own, h.q, h.info⟩) _
  | store => exact (by exact ⟨h.node, h.comp, h.own, h.q, h.info⟩)
  | restore => exact (by exact ⟨h.node, h.comp, h.own, h.q, h.info⟩)
  | remove n => exact (by exact ⟨h.node, h.comp, h.own, h.q, h.info⟩)
  | edit f => exact (by exact ⟨h.node, ha _ h.comp, h.own, h.q, h.info⟩)
  | editVer f => exact (by exact ⟨h.node, h.comp, h.own, h.q, h.info⟩)

theorem SL.acts {as : List Act} : ∀ {s : Stack}, SL env s → (∀ a ∈ as, ActL a) → SL env (as.foldl (Stack.act env) s) := by
  induction as with
  | nil => exact fun h _ => h
  | cons a as ih =>
    intro s h ha
    exact ih (h.act a (ha a (List.mem_cons_self ..))) (fun b hb => ha b (List.mem_cons_of_mem _ hb))

theorem SL.callApp (he : AEnvL env) {s : Stack} (h : SL env s) (c : ACall) : SL env (s.callApp env c).1 :=
  SL.acts (SL.logCall (by exact ⟨h.node, h.comp, h.own, h.q, h.info⟩) c) (he.acts _ _)

theorem SL.callHnd (he : AEnvL env) {s : Stack} (h : SL env s) (k : Hnd) (c : Component) : SL env (s.callHnd env k c).1 := by
  unfold Stack.callHnd
  split
  · exact h.callApp he _
  · exact h

theorem SL.callPort (he : AEnvL env) {s : Stack} (h : SL env s) (c : ACall) : SL env (s.callPort env c).1 := h.callApp he c

theorem SL.versionPre (he : AEnvL env) {s : Stack} (h : SL env s) {nr : Nat} (hn : nr ≤ 128) : SL env (s.versionPre env nr).1 := by
  unfold Stack.versionPre
  have h0 : SL env (if s.x.hnd .dlVersion = none then s else s.setX fun x => { x with vcomp := { x.vcomp with nr := nr } }) := by
    split
    · exact h
    · exact (by exact ⟨h.node, h.comp, h.own, h.q, h.info⟩)
  simp only
  generalize (if s.x.hnd .dlVersion = none then s else s.setX fun x => { x with vcomp := { x.vcomp with nr := nr } }) = s0 at *
  have h1 := h0.callHnd he .dlVersion s0.x.vcomp
  generalize s0.callHnd env .dlVersion s0.x.vcomp = r at *
  have h2 : SL env (r.1.setX fun x => { x with vcomp := { x.vcomp with name := noName } }) := (by exact ⟨h1.node, h1.comp, h1.own, h1.q, h1.info⟩)
  split
  · split
    · exact SL.ctrlTx h2 hn rfl
    · exact h2
  · exact SL.termination h2 hn _

theorem SL.dlStart2 (he : AEnvL env) {s : Stack} (h : SL env s) {nr : Nat} (hn : nr ≤ 128) (tp : Nat) (src : List Byte) :
    SL env (s.dlStart2 env nr tp src).1 := by
  unfold Stack.dlStart2
  split
  · exact h.termination hn _
  · simp only
    generalize hs : s.setX _ = s0
    have h0 : SL env s0 := by rw [← hs]; exact (by exact ⟨h.node, hn, h.own, h.q, h.info⟩)
    have h1 := h0.callHnd he .dlStartReq s0.x.comp
    generalize s0.callHnd env .dlStartReq s0.x.comp = r at *
    split
    · exact h1
    · exact h1.termination hn _

theorem SL.dlData {s : Stack} (h : SL env s) {nr : Nat} (hn : nr ≤ 128) (src : List Byte) : SL env (s.dlData env nr src).1 := by
  unfold Stack.dlData
  simp only
  generalize s.x.buf.addLoop env.bufSize (slice src 1 7) = r
  split
  · exact ⟨h.node, h.comp, h.own, h.q, h.info⟩
  · exact SL.termination (by exact ⟨h.node, h.comp, h.own, h.q, h.info⟩) hn _

theorem SL.dlBlockEnd (he : AEnvL env) {s : Stack} (h : SL env s) {nr : Nat} (hn : nr ≤ 128) (src : List Byte) :
    SL env (s.dlBlockEnd env nr src).1 := by
  unfold Stack.dlBlockEnd
  simp only
  split
  · generalize hs : (if 0 < sub16 s.x.bytes (Slave.at8 src 1 * 256 + Slave.at8 src 2) then _ else s) = s0
    have h0 : SL env s0 := by
      rw [← hs]; split
      · exact (by exact ⟨h.node, h.comp, h.own, h.q, h.info⟩)
      · exact h
    have h1 := h0.callHnd he .dlBlock s0.x.comp
    generalize s0.callHnd env .dlBlock s0.x.comp = r at *
    split
    · have h2 : SL env (r.1.blockAckn env nr) := h1.ctrlTx hn rfl
      exact (by exact ⟨h2.node, h2.comp, h2.own, h2.q, h2.info⟩)
    · exact h1.termination hn _
  · exact h.termination hn _

theorem SL.dlEnd (he : AEnvL env) {s : Stack} (h : SL env s) {nr : Nat} (hn : nr ≤ 128) : SL env (s.dlEnd env nr).1 := by
  unfold Stack.dlEnd
  simp only
  have h1 := h.callHnd he .dlEnd s.x.comp
  generalize s.callHnd env .dlEnd s.x.comp = r at *
  split
  · split
    · exact h1.endAckn hn
    · exact h1
  · exact h1.termination hn _

theorem SL.dlStart (he : AEnvL env) {s : Stack} (h : SL env s) {c : Component} (hn : c.nr ≤ 128) : SL env (s.dlStart env c).1 := by
  unfold Stack.dlStart
  simp only
  have h0 : SL env (s.setX fun x => { x with busy := true }) := (by exact ⟨h.node, h.comp, h.own, h.q, h.info⟩)
  have h1 := h0.callHnd he .dlStart c
  generalize (s.setX fun x => { x with busy := true }).callHnd env .dlStart c = r at *
  split
  · exact h1.startAckn hn _ _
  · exact h1.termination hn _

theorem SL.infoPre (he : AEnvL env) {s : Stack} (h : SL env s) {nr : Nat} (hn : nr ≤ 128) : SL env (s.infoPre env nr).1 := by
  unfold Stack.infoPre
  simp only
  generalize hs : (if s.x.hnd .ulInfo = none then s else _) = s0
  have h0 : SL env s0 := by
    rw [← hs]; split
    · exact h
    · exact (by exact ⟨h.node, hn, h.own, h.q, h.info⟩)
  have h1 := h0.callHnd he .ulInfo s0.x.comp
  generalize s0.callHnd env .ulInfo s0.x.comp = r at *
  have h2 : SL env (r.1.setX fun x => { x with comp := { x.comp with name := noName } }) := (by exact ⟨h1.node, h1.comp, h1.own, h1.q, h1.info⟩)
  split
  · split
    · exact SL.ctrlTx h2 hn rfl
    · exact h2
  · exact SL.termination h2 hn _

theorem SL.ulStart2 (he : AEnvL env) {s : Stack} (h : SL env s) {nr : Nat} (hn : nr ≤ 128) (src : List Byte) :
    SL env (s.ulStart2 env nr src).1 := by
  unfold Stack.ulStart2
  split
  · exact h.termination hn _
  · simp only
    generalize hs : s.setX _ = s0
    have h0 : SL env s0 := by rw [← hs]; exact (by exact ⟨h.node, hn, h.own, h.q, h.info⟩)
    have h1 := h0.callHnd he .ulStart s0.x.comp
    generalize s0.callHnd env .ulStart s0.x.comp = r at *
    split
    · exact h1
    · exact h1.termination hn _

theorem ulFill_len (data : List Byte) (b : Nat) : (ulFill data b).1.length = 7 := by simp [ulFill]

theorem SL.ulLoop (data : List Byte) (k : Nat) : ∀ {s : Stack} (old : Nat) {seg : List Byte}, SL env s → seg.length = 7 → ∀ s',
    Stack.ulLoop env data k s old seg = some s' → SL env s' := by
  induction k with
  | zero => intro s old seg _ _ s' e; cases e
  | succ k ih =>
    intro s old seg h hs s' e
    unfold Stack.ulLoop at e
    have h0 : SL env { s with clockN := s.clockN + 1 } := ⟨h.node, h.comp, h.own, h.q, h.info⟩
    simp only at e
    split at e
    · generalize hs1 : Stack.setX (Stack.ctrlTx env { s with clockN := s.clockN + 1 } s.x.comp.nr (0x15 :: seg)) _ = s1 at e
      have h1 : SL env s1 := by
        rw [← hs1]
        have h2 : SL env (Stack.ctrlTx env { s with clockN := s.clockN + 1 } s.x.comp.nr (0x15 :: seg)) := h0.ctrlTx h.comp (by simp [hs])
        exact (by exact ⟨h2.node, h2.comp, h2.own, h2.q, h2.info⟩)
      split at e
      · refine ih _ ?_ (ulFill_len ..) s' e
        exact ⟨h1.node, h1.comp, h1.own, h1.q, h1.info⟩
      · injection e with e
        have h2 : SL env (s1.uloadBlockEnd env s1.x.comp.nr) := h1.ctrlTx h1.comp rfl
        rw [← e]
        exact ⟨h2.node, h2.comp, h2.own, h2.q, h2.info⟩
    · exact ih _ h0 hs s' e

theorem SL.ulData {s s' : Stack} (h : SL env s) (fuel : Nat) (data : List Byte) (e : Stack.ulData env fuel s data = some s') : SL env s' :=
  SL.ulLoop data fuel _ (⟨h.node, h.comp, h.own, h.q, h.info⟩ : SL env { (s.setX fun x => { x with objs := 0, bytes := (ulFill data s.x.bytes).2 }) with clockN := s.clockN + 1 })
    (ulFill_len ..) s' e

/-! ## Queue and tunnel -/

theorem SL.handlerTx {s : Stack} (h : SL env s) : SL env (s.handlerTx env) := by
  have hq : SL env (s.handleQ env).1 := by
    unfold Stack.handleQ
    split
    · have := send_legal h.node (h.q s.q.read)
      simp only
      generalize s.slv.node.send env.toEnv (s.q.buf s.q.read) = r at *
      split
      · exact ⟨this, h.comp, h.own, h.q, h.info⟩
      · exact h.setNode this
    · exact h
  unfold Stack.handlerTx
  split
  · split
    · simp only
      generalize s.handleQ env = r at *
      exact hq.setNode (hq.node.report _)
    · exact h
  · exact h

theorem SL.enqueue {s : Stack} (h : SL env s) {nr dlc : Nat} {src : List Byte} (hn : nr ≤ 128) (hd : dlc ≤ src.length) :
    SL env (s.enqueue env nr dlc src).1 := by
  unfold Stack.enqueue
  split
  · exact h
  split
  · exact h
  · refine SL.handlerTx ⟨h.node, h.comp, h.own, ?_, h.info⟩
    intro k
    show Legal (upd s.q.buf s.q.write _ k)
    unfold upd
    split
    · exact ⟨by show asyncDataTxId nr < 2048; unfold asyncDataTxId idOf; omega, by show dlc ≤ 8; omega, by simp; omega⟩
    · exact h.q k

theorem SL.tnlDeny {s : Stack} (h : SL env s) (code : Byte) (p : Nat) {nr : Nat} (hn : nr ≤ 128) (e : Err) :
    SL env (s.tnlDeny env code p nr e) := h.ctrlTx hn rfl

theorem SL.tnlOpen (he : AEnvL env) {s : Stack} (h : SL env s) {nr : Nat} (hn : nr ≤ 128) (src : List Byte) :
    SL env (s.tnlOpen env nr src).1 := by
  unfold Stack.tnlOpen
  split
  · simp only
    have h1 := h.callPort he .tnlOpen
    generalize s.callPort env .tnlOpen = r at *
    split
    · generalize hs : r.1.setT _ = s1
      have h2 : SL env s1 := by rw [← hs]; exact (by exact ⟨h1.node, h1.comp, hn, h1.q, h1.info⟩)
      split
      · exact SL.ctrlTx (h2.setNode (h2.node.define _ _)) hn rfl
      · exact h2.tnlDeny _ _ hn _
    · exact h1.tnlDeny _ _ hn _
  · exact h.tnlDeny _ _ hn _

theorem SL.tnlFree {s : Stack} (h : SL env s) : SL env s.tnlFree := ⟨h.node, h.comp, (by show (125 : Nat) ≤ 128; decide), h.q, h.info⟩

theorem SL.tnlCloseReq (he : AEnvL env) {s : Stack} (h : SL env s) {nr : Nat} (hn : nr ≤ 128) (src : List Byte) :
    SL env (s.tnlCloseReq env nr src).1 := by
  unfold Stack.tnlCloseReq
  simp only
  have h1 := h.callPort he .tnlFree
  generalize s.callPort env .tnlFree = r at *
  split
  · exact h1.tnlFree.ctrlTx hn rfl
  · exact h1.tnlDeny _ _ hn _

theorem SL.command (he : AEnvL env) {s : Stack} (h : SL env s) {nr : Nat} (hn : nr ≤ 128) (tp : Nat) (src : List Byte) :
    SL env (s.command env nr tp src).1 := by
  unfold Stack.command
  have hx : ∀ c, SL env (s.tnlX env src c) := by
    intro c; unfold tnlX; split
    · exact h.callPort he c
    · exact h
  split
  · exact SL.versionPre he (by exact ⟨h.node, h.comp, h.own, h.q, h.info⟩) hn
  · exact (by exact ⟨h.node, h.comp, h.own, h.q, h.info⟩)
  · exact SL.versionPre he (by exact ⟨h.node, h.comp, h.own, h.q, h.info⟩) hn
  · show SL env (s.dlStart1 src)
    unfold dlStart1; split
    · exact h
    · exact (by exact ⟨h.node, h.comp, h.own, h.q, h.info⟩)
  · exact h.dlStart2 he hn tp src
  · exact h.dlData hn src
  · exact h.dlBlockEnd he hn src
  · exact h.dlEnd he hn
  · exact hx _
  · exact hx _
  · exact h.tnlOpen he hn src
  · exact h.tnlCloseReq he hn src
  · show SL env (s.tnlReset env).1
    unfold tnlReset
    split
    · simp only
      have h1 := h.callPort he .tnlClear
      generalize s.callPort env .tnlClear = r at *
      split
      · exact h1.callPort he _
      · exact h1
    · exact h
  · exact h
  · unfold tnlCloseAck
    split
    · exact (h.callPort he .tnlFree).tnlFree
    · exact h
  · exact h
  · show SL env (s.tnlCloseDeny nr src)
    unfold tnlCloseDeny; split
    · exact (by exact ⟨h.node, h.comp, h.own, h.q, h.info⟩)
    · exact h
  · exact h
  · exact h
  · exact h.callHnd he _ _
  · exact (by exact ⟨h.node, h.comp, h.own, h.q, h.info⟩)
  · exact (by exact ⟨h.node, h.comp, h.own, h.q, h.info⟩)
  · exact SL.infoPre he (by exact ⟨h.node, h.comp, h.own, h.q, h.info⟩) hn
  · exact (by exact ⟨h.node, hn, h.own, h.q, h.info⟩)
  · exact h.ulStart2 he hn src
  · exact h

theorem SL.asyncRx (he : AEnvL env) {s : Stack} (h : SL env s) (nr : Nat) (src : List Byte) : SL env (s.asyncRx env nr src).1 := by
  unfold Stack.asyncRx
  split
  · exact h
  · next tp ht =>
    split
    · exact h
    · have h1 : tp < env.maxMod := find_lt ht
      have h2 : (s.slv.node.rows tp).nr = nr := by simpa using List.find?_some ht
      exact h.command he (by rw [← h2]; exact (h.node.1.nr tp h1).2) tp src

theorem SL.ctrlRx (he : AEnvL env) {s : Stack} (h : SL env s) (obj id : Nat) (src : List Byte) : SL env (s.ctrlRx env obj id src) := by
  have fold : ∀ (ks : List Nat) (s : Stack), SL env s → SL env (ks.foldl (Stack.ctrlStep env obj (asyncNrOfId id) src) s) := by
    intro ks
    induction ks with
    | nil => exact fun s h => h
    | cons k ks ih =>
      intro s h
      refine ih _ ?_
      unfold Stack.ctrlStep
      split
      · have := h.asyncRx he (asyncNrOfId id) src
        simp only
        generalize s.asyncRx env (asyncNrOfId id) src = r at *
        exact this.setNode (this.node.report _)
      · exact h
  unfold Stack.ctrlRx
  split
  · exact fold _ _ h
  · exact h

theorem SL.dataRx (he : AEnvL env) {s : Stack} (h : SL env s) (obj dlc : Nat) (src : List Byte) : SL env (s.dataRx env obj dlc src) := by
  unfold Stack.dataRx
  split
  · exact h.callPort he _
  · exact h

theorem SL.putcRetry {s : Stack} (h : SL env s) : SL env (s.putcRetry env).1 := by
  unfold Stack.putcRetry
  simp only
  have h1 : SL env (s.enqueue env s.tnl.own s.tnl.tmp.length s.tnl.tmp).1 := h.enqueue h.own (Nat.le_refl _)
  generalize s.enqueue env s.tnl.own s.tnl.tmp.length s.tnl.tmp = r at *
  split
  · exact (by exact ⟨h1.node, h1.comp, h1.own, h1.q, h1.info⟩)
  · exact h1

theorem SL.putc {s : Stack} (h : SL env s) (x : Byte) : SL env (s.putc env x).1 := by
  unfold Stack.putc
  split
  · exact h
  split
  · have h1 : SL env (s.setT fun t => { t with tmp := t.tmp ++ [x] }) := (by exact ⟨h.node, h.comp, h.own, h.q, h.info⟩)
    simp only
    split
    · exact SL.putcRetry (by exact ⟨h1.node, h1.comp, h1.own, h1.q, h1.info⟩)
    · exact h1
  · exact h

theorem SL.processTx {s : Stack} (h : SL env s) (now : Nat) : SL env (s.processTx env now).1 := by
  unfold Stack.processTx
  split
  · exact h
  split
  · split
    · simp only
      have h1 : SL env (s.enqueue env s.tnl.own s.tnl.tmp.length s.tnl.tmp).1 := h.enqueue h.own (Nat.le_refl _)
      generalize s.enqueue env s.tnl.own s.tnl.tmp.length s.tnl.tmp = r at *
      split
      · exact (by exact ⟨h1.node, h1.comp, h1.own, h1.q, h1.info⟩)
      · exact h1
    · exact h
  · exact h

/-! ## Search -/

theorem updateCrc_comp (crc : InfoData → Nat) (i : XInfo) : (i.updateCrc crc).d = i.d := rfl

theorem SL.setSlv {s : Stack} (h : SL env s) {v : Slave} (hv : NodeL env.toEnv v.node) : SL env (s.setSlv env v) := by
  refine ⟨hv, h.comp, h.own, h.q, ?_⟩
  show (if _ then s.info else s.info.setBaud env.crc v.link.stored).d.comp.nr ≤ 128
  split
  · exact h.info
  · exact h.info

theorem SL.link {s : Stack} (h : SL env s) (l : Link) : SL env { s with slv := { s.slv with link := l } } :=
  ⟨h.node, h.comp, h.own, h.q, h.info⟩

theorem SL.lcsa {s : Stack} (h : SL env s) (l : LState) : SL env { s with lcsa := l } :=
  ⟨h.node, h.comp, h.own, h.q, h.info⟩

theorem SL.nodeMode {s : Stack} (h : SL env s) (m : Mode) : SL env (s.nodeMode env m).1 := h.link _

theorem SL.baudRate {s : Stack} (h : SL env s) (b : Nat) : SL env (s.baudRate env b).1 := SL.setSlv h h.node

theorem SL.notify {s : Stack} (h : SL env s) (f : Option Nat) (c : Nat → ACall) : SL env (s.notify f c) := by
  unfold Stack.notify
  split
  · exact h
  · exact h.logCall _

theorem SL.nextBaud {s : Stack} (h : SL env s) (now : Nat) : SL env (s.nextBaud env now) := by
  unfold Stack.nextBaud
  simp only
  generalize (if s.rc.idx < 3 then s.rc.idx + 1 else 0) = i
  have h1 := (h.nodeMode .stopped).baudRate (rcTab.getD i 0)
  refine SL.setR ?_
  split
  · exact h1.nodeMode _
  · exact h1

theorem SL.rcOn {s : Stack} (h : SL env s) (now : Nat) (first : Bool) : SL env (s.rcOn env now first) := by
  unfold Stack.rcOn
  refine SL.setR ?_
  split
  · exact ((h.lcsa _).setR).setR
  · exact ((h.lcsa _).setR).nextBaud _

theorem SL.reportUnaware {s : Stack} (h : SL env s) (e : Option Err) : SL env (s.reportUnaware env e) := by
  unfold Stack.reportUnaware
  split
  · exact h
  · split
    · refine h.setNode (h.node.congr (fun _ => ⟨rfl, rfl⟩) rfl rfl rfl rfl)
    · exact h

theorem SL.rcDone {s : Stack} (h : SL env s) (b : Nat) : SL env (s.rcDone env b) := by
  unfold Stack.rcDone
  split
  · exact ((h.lcsa _).reportUnaware _).notify _ _
  · exact ((h.lcsa _).reportUnaware _).notify _ _
  · exact ((h.lcsa _).reportUnaware _).notify _ _
  · exact (h.lcsa _).notify _ _
  · exact h.lcsa _

theorem SL.rcOff {s : Stack} (h : SL env s) (now : Nat) : SL env (s.rcOff env now) := by
  have h1 : SL env (((s.setR fun c => { c with process := false }).nodeMode env .stopped).1.baudRate env s.rc.back).1 :=
    ((h.setR).nodeMode _).baudRate _
  unfold Stack.rcOff
  simp only
  generalize (Stack.baudRate env _ s.rc.back) = r at *
  refine SL.setR ?_
  have h2 : SL env (if r.2 = E.ok then r.1.nodeMode env .operational else r).1 := by
    split
    · exact h1.nodeMode _
    · exact h1
  generalize (if r.2 = E.ok then r.1.nodeMode env .operational else r) = r2 at *
  split
  · exact (SL.setR (h2.lcsa _)).rcDone _
  · exact SL.setR h2

theorem SL.rcStartup {s : Stack} (h : SL env s) (now : Nat) : SL env (s.rcStartup env now) := by
  unfold Stack.rcStartup
  split
  · exact (SL.setR (h.notify _ _)).rcOn _ _
  · exact h

theorem SL.rcError {s : Stack} (h : SL env s) (now : Nat) (c : RCause) : SL env (s.rcError env now c) := by
  unfold Stack.rcError
  split
  · exact (SL.setR (((h.notify _ _).nodeMode _).nodeMode _)).rcOn _ _
  · exact h

theorem SL.rcSwitch {s : Stack} (h : SL env s) (now : Nat) : SL env (s.rcSwitch env now) := by
  unfold Stack.rcSwitch
  split
  · exact SL.setR (h.nextBaud _)
  · exact h

theorem SL.rcProcess {s : Stack} (h : SL env s) (now : Nat) (i : Pending) (lec : Lec) : SL env (s.rcProcess env now i lec) := by
  unfold Stack.rcProcess
  split
  · exact h
  split
  · split
    · exact h.setR.rcOff _
    split
    · exact h.setR.rcOff _
    split
    · exact h.setR.rcOn _ _
    split
    · exact h.nextBaud _
    · exact h
  · split
    · exact h.rcOff _
    split
    · exact h.rcSwitch _
    split
    · exact h.rcOff _
    · simp only
      split
      · exact h.setR.rcOff _
      · exact h.setR
    · split
      · exact h.rcOff _
      · exact h
    · exact h.setR.rcSwitch _
  · simp only
    split
    · exact h.setR.setR
    · exact h.setR
  · exact h

theorem SL.hwError {s : Stack} (h : SL env s) (now : Nat) (bus : BusState) (lec : Lec) : SL env (s.hwError env now bus lec) := by
  unfold Stack.hwError
  simp only
  have h1 : SL env (s.hwBusOff env now bus lec) := by
    unfold hwBusOff; split
    · exact ((h.nodeMode _).nodeMode _).rcError _ _
    · exact h
  generalize s.hwBusOff env now bus lec = s1 at *
  have h2 : SL env (s1.hwPassive env now bus) := by
    unfold hwPassive; split
    · exact (h1.link _).rcError _ _
    · exact h1
  generalize s1.hwPassive env now bus = s2 at *
  have h3 : SL env (if (bus ≠ .active ∨ lec ≠ .none) ∧ s.rc.state = .off then s2 else s) := by
    split
    · exact h2
    · exact h
  generalize (if (bus ≠ .active ∨ lec ≠ .none) ∧ s.rc.state = .off then s2 else s) = s3 at *
  split
  · exact h3.rcProcess _ _ _
  · exact h3

theorem SL.process {s : Stack} (h : SL env s) (now : Nat) (bus : BusState) (lec : Lec) : SL env (s.process env now bus lec) := by
  unfold Stack.process
  refine SL.processTx (SL.hwError ?_ _ _ _) _
  obtain ⟨p, hp⟩ := Slave.trigger_eq env.toEnv s.slv now
  rw [hp]
  exact ⟨h.node, h.comp, h.own, h.q, h.info⟩

theorem SL.rx (he : AEnvL env) {s s' : Stack} (h : SL env s) {now obj dlc id : Nat} {ext : Bool} {data : List Byte}
    (e : s.rx env now obj dlc id ext data = some s') : SL env s' := by
  unfold Stack.rx at e
  simp only at e
  split at e
  · injection e with e; rw [← e]; exact h.setR
  split at e
  · injection e with e; rw [← e]; exact h.setR
  · simp only [Option.map_eq_some_iff] at e
    obtain ⟨v, hv, e⟩ := e
    rw [← e]
    have hn : NodeL env.toEnv v.node := Slave.step_legal he.envl h.node (i := .frame now obj dlc id data) trivial hv
    have h1 : SL env (Stack.setSlv env (s.setR fun c => { c with pending := .msg }) v) := h.setR.setSlv hn
    exact ((h1.processTx now).ctrlRx he obj id data).dataRx he obj dlc data

theorem info_init {i : XInfo} (h : i.d.comp.nr ≤ 128) : (i.init env.crc).1.d.comp.nr ≤ 128 := by
  unfold XInfo.init
  split
  · exact h
  · show (125 : Nat) ≤ 128; decide

theorem SL.init {s : Stack} (h : SL env s) (baud : Nat) : SL env (s.init env baud).1 := by
  unfold Stack.init
  simp only
  have h0 : SL env { s with info := (s.info.init env.crc).1 } := ⟨h.node, h.comp, h.own, h.q, info_init h.info⟩
  generalize s.info.init env.crc = i at *
  have h1 : SL env (if i.2 ≠ E.ok ∧ env.sysErr = true then
    Stack.setNode { s with info := i.1 } { s.slv.node with
      errq := (s.slv.node.errq.sendFull env.qSize (i.2.setWidth 32) 0 10 7 2 (s.slv.node.rows 0).nr).1 }
    else { s with info := i.1 }) := by
    split
    · exact h0.setNode (h0.node.congr (fun _ => ⟨rfl, rfl⟩) rfl rfl rfl rfl)
    · exact h0
  generalize (if i.2 ≠ E.ok ∧ env.sysErr = true then _ else _ : Stack) = s1 at *
  generalize hs2 : (if s1.info.d.mode = 3 ∨ s1.info.d.mode = 2 ∨ s1.info.d.mode = 0 then { s1 with lcsa := LState.download } else s1) = s2
  have h2 : SL env s2 := by
    rw [← hs2]; split
    · exact h1.lcsa _
    · exact h1
  refine h2.setSlv ?_
  unfold Slave.init
  simp only
  have h3 := h2.node.init
  generalize s2.slv.node.init env.toEnv = r at *
  split <;> exact h3

theorem SL.startAck {s : Stack} (h : SL env s) : SL env (s.startAck env) := by
  unfold Stack.startAck
  split
  · have h1 := h.endAckn h.info
    exact ⟨h1.node, h1.comp, h1.own, h1.q, h1.info⟩
  · exact h

theorem SL.start {s : Stack} (h : SL env s) (now : Nat) : SL env (s.start env now).1 := by
  unfold Stack.start
  simp only
  generalize hr : (if s.lcsa = .download then _ else _ : Stack × Err) = r
  have h1 : SL env r.1 := by
    rw [← hr]
    split
    · generalize hq : Stack.nodeMode env _ .operational = q
      have h2 : SL env q.1 := by
        rw [← hq]
        exact (SL.setR (((h.setR).nodeMode _).baudRate _)).nodeMode _
      split
      · exact h2.lcsa _
      · exact h2
    · exact ((((h.setR).nodeMode _).baudRate _).rcStartup _).nodeMode _
  split
  · exact h1.startAck.lcsa _
  · exact h1

/-- inputs with legal numbers and templates -/
def SInL : SIn → Prop
  | .api i => Slave.InL i
  | .dlStart c => c.nr ≤ 128
  | .act a => ActL a
  | .enqueue nr dlc src => nr ≤ 128 ∧ dlc ≤ src.length
  | .info (.comp c) => c.nr ≤ 128
  | _ => True

theorem SL.step (he : AEnvL env) {s s' : Stack} {i : SIn} (h : SL env s) (hi : SInL i) (e : Stack.step env s i = some s') : SL env s' := by
  have same : ∀ {t : Stack}, some t = some s' → SL env t → SL env s' := by
    intro t e ht; injection e with e; rw [← e]; exact ht
  cases i with
  | rx now obj dlc id ext data => exact h.rx he e
  | process now bus lec => exact same e (h.process now bus lec)
  | init baud => exact same e (h.init baud)
  | start now => exact same e (h.start now)
  | setState l => exact same e (h.lcsa l)
  | setBaud b => exact same e (h.baudRate b)
  | api i =>
    simp only [Stack.step] at e
    split at e
    · simp only [Option.map_eq_some_iff] at e
      obtain ⟨v, hv, e⟩ := e
      rw [← e]
      exact ⟨Slave.step_legal he.envl h.node hi hv, h.comp, h.own, h.q, h.info⟩
    · exact same e h
  | hnd k f =>
    refine same e ?_
    unfold setHnd
    split
    · exact (by exact ⟨h.node, h.comp, h.own, h.q, h.info⟩)
    · exact h
  | dlStart c => exact same e (h.dlStart he hi)
  | act a => exact same e (h.act a hi)
  | ulData fuel data => exact h.ulData fuel data e
  | putc x => exact same e (h.putc x)
  | retry =>
    refine same e ?_
    split
    · exact h
    · exact h.putcRetry
  | xonOff code =>
    refine same e ?_
    unfold xonOff
    split
    · exact h
    · exact h.ctrlTx h.own rfl
  | shutdown =>
    refine same e ?_
    unfold tnlShutdown
    split
    · exact h
    · exact SL.ctrlTx (by exact ⟨h.node, h.comp, h.own, h.q, h.info⟩) (by exact h.own) rfl
  | enqueue nr dlc src => exact same e (h.enqueue hi.1 hi.2)
  | info o =>
    refine same e ⟨h.node, h.comp, h.own, h.q, ?_⟩
    cases o with
    | comp c => exact hi
    | clean => show (125 : Nat) ≤ 128; decide
    | init => exact info_init h.info
    | mode m => exact h.info
    | baud b => exact h.info
    | user1 x => exact h.info
    | user2 x => exact h.info
  | rcCb k f =>
    refine same e ?_
    unfold setRcCb
    split <;> split <;> first | exact h.setR | exact h

theorem SL.run (he : AEnvL env) (is : List SIn) : ∀ {s s' : Stack}, SL env s → (∀ i ∈ is, SInL i) → Stack.run env s is = some s' → SL env s' := by
  induction is with
  | nil => intro s s' h _ e; injection e with e; rw [← e]; exact h
  | cons i is ih =>
    intro s s' h hi e
    simp only [Stack.run, Option.bind_eq_some_iff] at e
    obtain ⟨t, ht, e⟩ := e
    exact ih (h.step he (hi i (List.mem_cons_self ..)) ht) (fun j hj => hi j (List.mem_cons_of_mem _ hj)) e

theorem SL.boot (mem : Nat → List Byte) {info : XInfo} (hi : info.d.comp.nr ≤ 128) : SL env (Stack.boot mem info) := by
  refine ⟨⟨⟨?_, ?_, ?_, ?_, ?_⟩, ?_⟩, ?_, ?_, ?_, hi⟩
  · intro i _
    show NrOk (if i = 0 then 125 else if i = 1 then 126 else 127)
    split
    · decide
    split <;> decide
  · exact fun _ _ => Nat.zero_le _
  · intro i c hc; cases hc
  · intro i j; exact (by decide : (0 : Nat) < 2048)
  · exact fun _ _ => Nat.zero_le _
  · intro f ok hm; cases hm
  · exact Nat.zero_le _
  · exact (by decide : 125 ≤ 128)
  · intro k; exact (by decide : Legal ⟨0, 0, []⟩)

end Stack
end LiCan
