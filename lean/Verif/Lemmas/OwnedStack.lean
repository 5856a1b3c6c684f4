import Verif.Lemmas.Owned
import Verif.Lemmas.TxQueue
/-! # Every frame of the whole stack belongs to a number of the node -/
namespace LiCan
open Spec
namespace Stack
open Node

/-- a handler acts for numbers of the node -/
def ActO (N : Nat → Prop) : Act → Prop
  | .startAckn nr .. => N nr
  | .endAckn nr => N nr
  | .termination nr _ => N nr
  | .versionAnswer nr .. => N nr
  | .infoAnswer nr .. => N nr
  | .uloadEnd nr => N nr
  | .edit f => ∀ c, (f c).nr = c.nr ∨ N (f c).nr
  | _ => True

/-- the application is called for a component of a number of the node, or one without number -/
def CallO (N : Nat → Prop) : ACall → Prop
  | .hnd _ _ c => c.nr = 0 ∨ N c.nr
  | _ => True

/-- the application; called for a module it acts for the node -/
structure AEnvO (env : AEnv) (N : Nat → Prop) : Prop where
  envo : EnvO env.toEnv N
  acts : ∀ k c, CallO N c → ∀ a ∈ (env.reply k c).acts, ActO N a

/-- the table of the node, nothing known about single rows -/
abbrev NodeP (B : List Ev) (env : AEnv) (N : Nat → Prop) (n : Node) : Prop := NodeO B env.toEnv ⟨N, fun _ => False, fun _ => False⟩ n

/-- the invariant -/
structure SO (B : List Ev) (env : AEnv) (N : Nat → Prop) (s : Stack) : Prop where
  node : NodeP B env N s.slv.node
  comp : s.x.comp.nr = 0 ∨ N s.x.comp.nr
  own : s.tnl.state ≠ .free → N s.tnl.own
  lock : s.tnl.lock ≠ 0 → 4 ≤ s.q.state
  ring : Ring s.q
  q : ∀ f ∈ pendingOf s.q, FromSlave N f.id
  info : s.info.d.mode = 3 → N s.info.d.comp.nr

variable {env : AEnv} {N : Nat → Prop} {B : List Ev}

/-- only the node changed -/
theorem SO.setNode {s : Stack} (h : SO B env N s) {n : Node} (hn : NodeP B env N n) : SO B env N (s.setNode n) :=
  ⟨hn, h.comp, h.own, h.lock, h.ring, h.q, h.info⟩

theorem SO.setR {s : Stack} (h : SO B env N s) {f : Recon → Recon} : SO B env N (s.setR f) :=
  ⟨h.node, h.comp, h.own, h.lock, h.ring, h.q, h.info⟩

theorem send_owned {n : Node} (h : NodeP B env N n) {f : Frame} (hf : FromSlave N f.id) : NodeP B env N (n.send env.toEnv f).1 :=
  ⟨h.1.light (.send ..), h.2.cons rfl (fun g ok e => by injection e with e _; rw [← e]; exact hf)⟩

theorem SO.num {s : Stack} (h : SO B env N s) : Numbers N := h.node.1.num

theorem SO.ctrlTx {s : Stack} (h : SO B env N s) {nr : Nat} (hn : N nr) (d : List Byte) : SO B env N (s.ctrlTx env nr d) := by
  refine h.setNode (send_owned h.node ⟨nr, hn, .inr (.inr (.inl ?_))⟩)
  have := h.num _ hn
  show asyncCtrlTxId nr = _
  unfold asyncCtrlTxId idOf; omega

theorem SO.logCall {s : Stack} (h : SO B env N s) (c : ACall) : SO B env N (s.logCall c) :=
  h.setNode (h.node.log1 _ (fun f ok e => by cases e))

theorem SO.startAckn {s : Stack} (h : SO B env N s) {nr : Nat} (hn : N nr) (m : Nat) (d : Byte) : SO B env N (s.startAckn env nr m d) :=
  SO.ctrlTx (by exact ⟨h.node, h.comp, h.own, h.lock, h.ring, h.q, h.info⟩) hn _

theorem SO.endAckn {s : Stack} (h : SO B env N s) {nr : Nat} (hn : N nr) : SO B env N (s.endAckn env nr) := by
  have h1 : SO B env N ((s.setX fun x => { x with comp := { x.comp with name := noName } }).ctrlTx env nr [0x1B, 0, 0, 0, 0, 0, 0, 0]) :=
    SO.ctrlTx (by exact ⟨h.node, h.comp, h.own, h.lock, h.ring, h.q, h.info⟩) hn _
  exact (by exact ⟨h1.node, h1.comp, h1.own, h1.lock, h1.ring, h1.q, h1.info⟩)

theorem SO.termination {s : Stack} (h : SO B env N s) {nr : Nat} (hn : N nr) (e : Err) : SO B env N (s.termination env nr e) := by
  have h1 : SO B env N ((s.setX fun x => { x with comp := { x.comp with name := noName } }).ctrlTx env nr (termBytes e)) :=
    SO.ctrlTx (by exact ⟨h.node, h.comp, h.own, h.lock, h.ring, h.q, h.info⟩) hn _
  exact (by exact ⟨h1.node, h1.comp, h1.own, h1.lock, h1.ring, h1.q, h1.info⟩)

theorem SO.act {s : Stack} (h : SO B env N s) (a : Act) (ha : ActO N a) : SO B env N (s.act env a) := by
  cases a with
  | startAckn nr m d => exact h.startAckn ha m d
  | endAckn nr => exact h.endAckn ha
  | termination nr e => exact h.termination ha e
  | versionAnswer nr i c d => exact h.ctrlTx ha _
  | infoAnswer nr i z => exact h.ctrlTx ha _
  | uloadEnd nr => exact h.ctrlTx ha _
  | get => exact SO.logCall (by exact ⟨h.node, h.comp, h.own, h.lock, h.ring, h.q, h.info⟩) _
  | store => exact (by exact ⟨h.node, h.comp, h.own, h.lock, h.ring, h.q, h.info⟩)
  | restore => exact (by exact ⟨h.node, h.comp, h.own, h.lock, h.ring, h.q, h.info⟩)
  | remove n => exact (by exact ⟨h.node, h.comp, h.own, h.lock, h.ring, h.q, h.info⟩)
  | edit f =>
    have hc : (f s.x.comp).nr = 0 ∨ N (f s.x.comp).nr := by
      rcases ha s.x.comp with e | e
      · rw [e]; exact h.comp
      · exact .inr e
    exact (by exact ⟨h.node, hc, h.own, h.lock, h.ring, h.q, h.info⟩)
  | editVer f => exact (by exact ⟨h.node, h.comp, h.own, h.lock, h.ring, h.q, h.info⟩)

theorem SO.acts {as : List Act} : ∀ {s : Stack}, SO B env N s → (∀ a ∈ as, ActO N a) → SO B env N (as.foldl (Stack.act env) s) := by
  induction as with
  | nil => exact fun h _ => h
  | cons a as ih =>
    intro s h ha
    exact ih (h.act a (ha a (List.mem_cons_self ..))) (fun b hb => ha b (List.mem_cons_of_mem _ hb))

theorem SO.callApp (he : AEnvO env N) {s : Stack} (h : SO B env N s) (c : ACall) (hc : CallO N c) : SO B env N (s.callApp env c).1 :=
  SO.acts (SO.logCall (by exact ⟨h.node, h.comp, h.own, h.lock, h.ring, h.q, h.info⟩) c) (he.acts _ _ hc)

theorem SO.callHnd (he : AEnvO env N) {s : Stack} (h : SO B env N s) (k : Hnd) (c : Component) (hc : c.nr = 0 ∨ N c.nr) : SO B env N (s.callHnd env k c).1 := by
  unfold Stack.callHnd
  split
  · exact h.callApp he _ hc
  · exact h

theorem SO.callPort (he : AEnvO env N) {s : Stack} (h : SO B env N s) (c : ACall) (hc : CallO N c := by trivial) : SO B env N (s.callPort env c).1 := h.callApp he c hc

theorem SO.versionPre (he : AEnvO env N) {s : Stack} (h : SO B env N s) {nr : Nat} (hn : N nr) : SO B env N (s.versionPre env nr).1 := by
  unfold Stack.versionPre
  have h0 : SO B env N (if s.x.hnd .dlVersion = none then s else s.setX fun x => { x with vcomp := { x.vcomp with nr := nr } }) ∧
      ((if s.x.hnd .dlVersion = none then s else s.setX fun x => { x with vcomp := { x.vcomp with nr := nr } }).x.hnd .dlVersion = none ∨
       N (if s.x.hnd .dlVersion = none then s else s.setX fun x => { x with vcomp := { x.vcomp with nr := nr } }).x.vcomp.nr) := by
    split
    · next e => exact ⟨h, .inl e⟩
    · exact ⟨by exact ⟨h.node, h.comp, h.own, h.lock, h.ring, h.q, h.info⟩, .inr hn⟩
  simp only
  generalize (if s.x.hnd .dlVersion = none then s else s.setX fun x => { x with vcomp := { x.vcomp with nr := nr } }) = s0 at *
  have h1 : SO B env N (s0.callHnd env .dlVersion s0.x.vcomp).1 := by
    rcases h0 with ⟨h0, e | e⟩
    · unfold Stack.callHnd; rw [e]; exact h0
    · exact h0.callHnd he .dlVersion s0.x.vcomp (.inr e)
  generalize s0.callHnd env .dlVersion s0.x.vcomp = r at *
  have h2 : SO B env N (r.1.setX fun x => { x with vcomp := { x.vcomp with name := noName } }) := (by exact ⟨h1.node, h1.comp, h1.own, h1.lock, h1.ring, h1.q, h1.info⟩)
  split
  · split
    · exact SO.ctrlTx h2 hn _
    · exact h2
  · exact SO.termination h2 hn _

theorem SO.dlStart2 (he : AEnvO env N) {s : Stack} (h : SO B env N s) {nr : Nat} (hn : N nr) (tp : Nat) (src : List Byte) :
    SO B env N (s.dlStart2 env nr tp src).1 := by
  unfold Stack.dlStart2
  split
  · exact h.termination hn _
  · simp only
    generalize hs : s.setX _ = s0
    have h0 : SO B env N s0 := by rw [← hs]; exact (by exact ⟨h.node, (.inr hn), h.own, h.lock, h.ring, h.q, h.info⟩)
    have h1 := h0.callHnd he .dlStartReq s0.x.comp h0.comp
    generalize s0.callHnd env .dlStartReq s0.x.comp = r at *
    split
    · exact h1
    · exact h1.termination hn _

theorem SO.dlData {s : Stack} (h : SO B env N s) {nr : Nat} (hn : N nr) (src : List Byte) : SO B env N (s.dlData env nr src).1 := by
  unfold Stack.dlData
  simp only
  generalize s.x.buf.addLoop env.bufSize (slice src 1 7) = r
  split
  · exact ⟨h.node, h.comp, h.own, h.lock, h.ring, h.q, h.info⟩
  · exact SO.termination (by exact ⟨h.node, h.comp, h.own, h.lock, h.ring, h.q, h.info⟩) hn _

theorem SO.dlBlockEnd (he : AEnvO env N) {s : Stack} (h : SO B env N s) {nr : Nat} (hn : N nr) (src : List Byte) :
    SO B env N (s.dlBlockEnd env nr src).1 := by
  unfold Stack.dlBlockEnd
  simp only
  split
  · generalize hs : (if 0 < sub16 s.x.bytes (Slave.at8 src 1 * 256 + Slave.at8 src 2) then _ else s) = s0
    have h0 : SO B env N s0 := by
      rw [← hs]; split
      · exact (by exact ⟨h.node, h.comp, h.own, h.lock, h.ring, h.q, h.info⟩)
      · exact h
    have h1 := h0.callHnd he .dlBlock s0.x.comp h0.comp
    generalize s0.callHnd env .dlBlock s0.x.comp = r at *
    split
    · have h2 : SO B env N (r.1.blockAckn env nr) := h1.ctrlTx hn _
      exact (by exact ⟨h2.node, h2.comp, h2.own, h2.lock, h2.ring, h2.q, h2.info⟩)
    · exact h1.termination hn _
  · exact h.termination hn _

theorem SO.dlEnd (he : AEnvO env N) {s : Stack} (h : SO B env N s) {nr : Nat} (hn : N nr) : SO B env N (s.dlEnd env nr).1 := by
  unfold Stack.dlEnd
  simp only
  have h1 := h.callHnd he .dlEnd s.x.comp h.comp
  generalize s.callHnd env .dlEnd s.x.comp = r at *
  split
  · split
    · exact h1.endAckn hn
    · exact h1
  · exact h1.termination hn _

theorem SO.dlStart (he : AEnvO env N) {s : Stack} (h : SO B env N s) {c : Component} (hn : N c.nr) : SO B env N (s.dlStart env c).1 := by
  unfold Stack.dlStart
  simp only
  have h0 : SO B env N (s.setX fun x => { x with busy := true }) := (by exact ⟨h.node, h.comp, h.own, h.lock, h.ring, h.q, h.info⟩)
  have h1 := h0.callHnd he .dlStart c (.inr hn)
  generalize (s.setX fun x => { x with busy := true }).callHnd env .dlStart c = r at *
  split
  · exact h1.startAckn hn _ _
  · exact h1.termination hn _

theorem SO.infoPre (he : AEnvO env N) {s : Stack} (h : SO B env N s) {nr : Nat} (hn : N nr) : SO B env N (s.infoPre env nr).1 := by
  unfold Stack.infoPre
  simp only
  generalize hs : (if s.x.hnd .ulInfo = none then s else _) = s0
  have h0 : SO B env N s0 := by
    rw [← hs]; split
    · exact h
    · exact (by exact ⟨h.node, (.inr hn), h.own, h.lock, h.ring, h.q, h.info⟩)
  have h1 := h0.callHnd he .ulInfo s0.x.comp h0.comp
  generalize s0.callHnd env .ulInfo s0.x.comp = r at *
  have h2 : SO B env N (r.1.setX fun x => { x with comp := { x.comp with name := noName } }) := (by exact ⟨h1.node, h1.comp, h1.own, h1.lock, h1.ring, h1.q, h1.info⟩)
  split
  · split
    · exact SO.ctrlTx h2 hn _
    · exact h2
  · exact SO.termination h2 hn _

theorem SO.ulStart2 (he : AEnvO env N) {s : Stack} (h : SO B env N s) {nr : Nat} (hn : N nr) (src : List Byte) :
    SO B env N (s.ulStart2 env nr src).1 := by
  unfold Stack.ulStart2
  split
  · exact h.termination hn _
  · simp only
    generalize hs : s.setX _ = s0
    have h0 : SO B env N s0 := by rw [← hs]; exact (by exact ⟨h.node, (.inr hn), h.own, h.lock, h.ring, h.q, h.info⟩)
    have h1 := h0.callHnd he .ulStart s0.x.comp h0.comp
    generalize s0.callHnd env .ulStart s0.x.comp = r at *
    split
    · exact h1
    · exact h1.termination hn _

theorem SO.ulLoop (data : List Byte) (k : Nat) : ∀ {s : Stack} (old : Nat) {seg : List Byte}, SO B env N s → N s.x.comp.nr → ∀ s',
    Stack.ulLoop env data k s old seg = some s' → SO B env N s' := by
  induction k with
  | zero => intro s old seg _ _ s' e; cases e
  | succ k ih =>
    intro s old seg h hs s' e
    unfold Stack.ulLoop at e
    have h0 : SO B env N { s with clockN := s.clockN + 1 } := ⟨h.node, h.comp, h.own, h.lock, h.ring, h.q, h.info⟩
    simp only at e
    split at e
    · generalize hs1 : Stack.setX (Stack.ctrlTx env { s with clockN := s.clockN + 1 } s.x.comp.nr (0x15 :: seg)) _ = s1 at e
      have h1 : SO B env N s1 ∧ N s1.x.comp.nr := by
        rw [← hs1]
        have h2 : SO B env N (Stack.ctrlTx env { s with clockN := s.clockN + 1 } s.x.comp.nr (0x15 :: seg)) := h0.ctrlTx hs _
        exact ⟨(by exact ⟨h2.node, h2.comp, h2.own, h2.lock, h2.ring, h2.q, h2.info⟩), hs⟩
      obtain ⟨h1, hs1⟩ := h1
      split at e
      · refine ih _ ?_ ?_ s' e
        · exact ⟨h1.node, h1.comp, h1.own, h1.lock, h1.ring, h1.q, h1.info⟩
        · exact hs1
      · injection e with e
        have h2 : SO B env N (s1.uloadBlockEnd env s1.x.comp.nr) := h1.ctrlTx hs1 _
        rw [← e]
        exact ⟨h2.node, h2.comp, h2.own, h2.lock, h2.ring, h2.q, h2.info⟩
    · exact ih _ h0 hs s' e

theorem SO.ulData {s s' : Stack} (h : SO B env N s) (hn : s.x.comp.nr ≠ 0) (fuel : Nat) (data : List Byte) (e : Stack.ulData env fuel s data = some s') : SO B env N s' :=
  SO.ulLoop data fuel _ (⟨h.node, h.comp, h.own, h.lock, h.ring, h.q, h.info⟩ : SO B env N { (s.setX fun x => { x with objs := 0, bytes := (ulFill data s.x.bytes).2 }) with clockN := s.clockN + 1 })
    (h.comp.resolve_left hn) s' e

/-! ## Queue and tunnel -/

theorem handlerTx_rest (s : Stack) : ∃ n q, s.handlerTx env = { s with slv := { s.slv with node := n }, q := q } := by
  have h : ∃ n q, (s.handleQ env).1 = { s with slv := { s.slv with node := n }, q := q } := by
    unfold Stack.handleQ
    split
    · simp only
      generalize s.slv.node.send env.toEnv (s.q.buf s.q.read) = r
      split
      · exact ⟨r.1, _, rfl⟩
      · exact ⟨r.1, s.q, rfl⟩
    · exact ⟨s.slv.node, s.q, rfl⟩
  unfold Stack.handlerTx
  split
  · split
    · obtain ⟨n, q, e⟩ := h
      simp only
      rw [e]
      exact ⟨_, q, rfl⟩
    · exact ⟨s.slv.node, s.q, rfl⟩
  · exact ⟨s.slv.node, s.q, rfl⟩

theorem handlerTx_node {s : Stack} (h : NodeP B env N s.slv.node) (hr : Ring s.q) (hq : ∀ f ∈ pendingOf s.q, FromSlave N f.id) :
    NodeP B env N (s.handlerTx env).slv.node := by
  unfold Stack.handlerTx
  split
  · split
    · next h0 =>
      have hb : FromSlave N (s.q.buf s.q.read).id := by
        refine hq _ ?_
        rw [pendingOf_pop hr h0]; exact List.mem_cons_self ..
      have h1 : NodeP B env N (s.handleQ env).1.slv.node := by
        unfold Stack.handleQ
        rw [if_pos h0]
        have := send_owned h hb
        simp only
        generalize s.slv.node.send env.toEnv (s.q.buf s.q.read) = r at *
        split
        · exact this
        · exact this
      simp only
      generalize s.handleQ env = r at *
      exact h1.report _
    · exact h
  · exact h

/-- what the queue does to the stack -/
theorem enqueue_parts {s : Stack} {nr dlc : Nat} {src : List Byte} (h : NodeP B env N s.slv.node) (hr : Ring s.q)
    (hq : ∀ f ∈ pendingOf s.q, FromSlave N f.id) (hn : N nr) :
    ∃ n q, (s.enqueue env nr dlc src).1 = { s with slv := { s.slv with node := n }, q := q } ∧ NodeP B env N n ∧ Ring q ∧
      (∀ f ∈ pendingOf q, FromSlave N f.id) ∧ (4 ≤ s.q.state → q = s.q) ∧ ((s.enqueue env nr dlc src).2 ≠ E.ok → 8 < dlc ∨ 4 ≤ s.q.state) := by
  unfold Stack.enqueue
  split
  · next h4 => exact ⟨s.slv.node, s.q, rfl, h, hr, hq, fun _ => rfl, fun _ => .inr h4⟩
  split
  · next h8 => exact ⟨s.slv.node, s.q, rfl, h, hr, hq, fun _ => rfl, fun _ => .inl h8⟩
  · next h4 _ =>
    simp only
    generalize hf : (⟨asyncDataTxId nr, dlc, src.take dlc⟩ : Frame) = f
    have ho : FromSlave N f.id := by
      rw [← hf]
      refine ⟨nr, hn, .inr (.inr (.inr ?_))⟩
      have := h.1.num _ hn
      show asyncDataTxId nr = _
      unfold asyncDataTxId idOf; omega
    have hp := pendingOf_push hr (by omega) f (if s.q.write < 3 then s.q.write + 1 else 0)
    have hg := Ring.push hr (by omega) (upd s.q.buf s.q.write f)
    have h0 : 0 < s.q.state + 1 := Nat.succ_pos _
    generalize hQ : ({ s.q with buf := upd s.q.buf s.q.write f, write := if s.q.write < 3 then s.q.write + 1 else 0, state := s.q.state + 1 } : DataQ) = Q at *
    have h0 : 0 < Q.state := by rw [← hQ]; exact h0
    have hQq : ∀ g ∈ pendingOf Q, FromSlave N g.id := by
      intro g hg
      rw [hp] at hg
      rcases List.mem_append.1 hg with hg | hg
      · exact hq g hg
      · rw [List.mem_singleton.1 hg]; exact ho
    obtain ⟨n, q, e⟩ := handlerTx_rest (env := env) { s with q := Q }
    have hnode := handlerTx_node (env := env) (s := { s with q := Q }) h hg hQq
    obtain ⟨a, -, -, d⟩ := handlerTx_spec env { s with q := Q } hg h0
    rw [e] at hnode a d ⊢
    refine ⟨n, q, rfl, hnode, a, ?_, fun h => absurd h (by omega), fun h => absurd rfl h⟩
    rcases d with ⟨-, d⟩ | ⟨-, -, d1, d2⟩
    · have : q = Q := congrArg Stack.q d
      rw [this]; exact hQq
    · cases hb : env.sendOk s.slv.node.sendN with
      | false => have := d1 hb; exact (congrArg (fun q => ∀ g ∈ pendingOf q, FromSlave N g.id) this).mpr hQq
      | true =>
        have := d2 hb
        intro g hg'
        refine hQq g ?_
        have this : pendingOf Q = Q.buf Q.read :: pendingOf q := this
        rw [this]; exact List.mem_cons_of_mem _ hg'

theorem SO.enqueue {s : Stack} (h : SO B env N s) {nr : Nat} (dlc : Nat) (src : List Byte) (hn : N nr) :
    SO B env N (s.enqueue env nr dlc src).1 := by
  obtain ⟨n, q, e, h1, h2, h3, h4, -⟩ := enqueue_parts (env := env) (dlc := dlc) (src := src) h.node h.ring h.q hn
  rw [e]
  refine ⟨h1, h.comp, h.own, ?_, h2, h3, h.info⟩
  intro hl
  have := h.lock hl
  show 4 ≤ q.state
  rw [h4 this]; exact this

theorem SO.tnlDeny {s : Stack} (h : SO B env N s) (code : Byte) (p : Nat) {nr : Nat} (hn : N nr) (e : Err) :
    SO B env N (s.tnlDeny env code p nr e) := h.ctrlTx hn _

theorem SO.tnlOpen (he : AEnvO env N) {s : Stack} (h : SO B env N s) {nr : Nat} (hn : N nr) (src : List Byte) :
    SO B env N (s.tnlOpen env nr src).1 := by
  unfold Stack.tnlOpen
  split
  · simp only
    have h1 := h.callPort he .tnlOpen
    generalize s.callPort env .tnlOpen = r at *
    split
    · generalize hs : r.1.setT _ = s1
      have h2 : SO B env N s1 := by rw [← hs]; exact (by exact ⟨h1.node, h1.comp, fun _ => hn, h1.lock, h1.ring, h1.q, h1.info⟩)
      split
      · exact SO.ctrlTx (h2.setNode (h2.node.define _ _ (defO_tnl (h2.num _ hn) _ _))) hn _
      · exact h2.tnlDeny _ _ hn _
    · exact h1.tnlDeny _ _ hn _
  · exact h.tnlDeny _ _ hn _

theorem SO.tnlFree {s : Stack} (h : SO B env N s) : SO B env N s.tnlFree := ⟨h.node, h.comp, fun h => absurd rfl h, h.lock, h.ring, h.q, h.info⟩

theorem SO.tnlCloseReq (he : AEnvO env N) {s : Stack} (h : SO B env N s) {nr : Nat} (hn : N nr) (src : List Byte) :
    SO B env N (s.tnlCloseReq env nr src).1 := by
  unfold Stack.tnlCloseReq
  simp only
  have h1 := h.callPort he .tnlFree
  generalize s.callPort env .tnlFree = r at *
  split
  · exact h1.tnlFree.ctrlTx hn _
  · exact h1.tnlDeny _ _ hn _

theorem SO.command (he : AEnvO env N) {s : Stack} (h : SO B env N s) {nr : Nat} (hn : N nr) (tp : Nat) (src : List Byte) :
    SO B env N (s.command env nr tp src).1 := by
  unfold Stack.command
  have hx : ∀ c, CallO N c → SO B env N (s.tnlX env src c) := by
    intro c hc; unfold tnlX; split
    · exact h.callPort he c hc
    · exact h
  split
  · exact SO.versionPre he (by exact ⟨h.node, h.comp, h.own, h.lock, h.ring, h.q, h.info⟩) hn
  · exact (by exact ⟨h.node, h.comp, h.own, h.lock, h.ring, h.q, h.info⟩)
  · exact SO.versionPre he (by exact ⟨h.node, h.comp, h.own, h.lock, h.ring, h.q, h.info⟩) hn
  · show SO B env N (s.dlStart1 src)
    unfold dlStart1; split
    · exact h
    · exact (by exact ⟨h.node, h.comp, h.own, h.lock, h.ring, h.q, h.info⟩)
  · exact h.dlStart2 he hn tp src
  · exact h.dlData hn src
  · exact h.dlBlockEnd he hn src
  · exact h.dlEnd he hn
  · exact hx _ trivial
  · exact hx _ trivial
  · exact h.tnlOpen he hn src
  · exact h.tnlCloseReq he hn src
  · show SO B env N (s.tnlReset env).1
    unfold tnlReset
    split
    · simp only
      have h1 := h.callPort he .tnlClear
      generalize s.callPort env .tnlClear = r at *
      split
      · exact h1.callPort he _
      · exact h1
    · exact h
  · exact h
  · unfold tnlCloseAck
    split
    · exact (h.callPort he .tnlFree).tnlFree
    · exact h
  · exact h
  · show SO B env N (s.tnlCloseDeny nr src)
    unfold tnlCloseDeny; split
    · next hc => exact (by exact ⟨h.node, h.comp, fun _ => h.own (by rw [hc.1]; simp), h.lock, h.ring, h.q, h.info⟩)
    · exact h
  · exact h
  · exact h
  · exact h.callHnd he _ _ h.comp
  · exact (by exact ⟨h.node, h.comp, h.own, h.lock, h.ring, h.q, h.info⟩)
  · exact (by exact ⟨h.node, h.comp, h.own, h.lock, h.ring, h.q, h.info⟩)
  · exact SO.infoPre he (by exact ⟨h.node, h.comp, h.own, h.lock, h.ring, h.q, h.info⟩) hn
  · exact (by exact ⟨h.node, (.inr hn), h.own, h.lock, h.ring, h.q, h.info⟩)
  · exact h.ulStart2 he hn src
  · exact h

theorem SO.asyncRx (he : AEnvO env N) {s : Stack} (h : SO B env N s) {nr : Nat} (hnr : 125 ≤ nr → nr ≤ 127 → N nr) (src : List Byte) :
    SO B env N (s.asyncRx env nr src).1 := by
  unfold Stack.asyncRx
  split
  · exact h
  · next tp ht =>
    split
    · exact h
    · have h1 : tp < env.maxMod := find_lt ht
      have h2 : (s.slv.node.rows tp).nr = nr := by simpa using List.find?_some ht
      refine h.command he ?_ tp src
      rcases h.node.1.nr tp h1 with a | a
      · rw [← h2]; exact a
      · rw [h2] at a; exact hnr a.2.1 a.2.2

theorem SO.ctrlRx (he : AEnvO env N) {s : Stack} (h : SO B env N s) (obj : Nat) {id : Nat} (hid : ∀ n, 125 ≤ n → n ≤ 127 → asyncNrOfId id = n → N n) (src : List Byte) : SO B env N (s.ctrlRx env obj id src) := by
  have fold : ∀ (ks : List Nat) (s : Stack), SO B env N s → SO B env N (ks.foldl (Stack.ctrlStep env obj (asyncNrOfId id) src) s) := by
    intro ks
    induction ks with
    | nil => exact fun s h => h
    | cons k ks ih =>
      intro s h
      refine ih _ ?_
      unfold Stack.ctrlStep
      split
      · have := h.asyncRx he (nr := asyncNrOfId id) (fun a b => hid _ a b rfl) src
        simp only
        generalize s.asyncRx env (asyncNrOfId id) src = r at *
        exact this.setNode (this.node.report _)
      · exact h
  unfold Stack.ctrlRx
  split
  · exact fold _ _ h
  · exact h

theorem SO.dataRx (he : AEnvO env N) {s : Stack} (h : SO B env N s) (obj dlc : Nat) (src : List Byte) : SO B env N (s.dataRx env obj dlc src) := by
  unfold Stack.dataRx
  split
  · exact h.callPort he _
  · exact h

theorem SO.putc {s : Stack} (h : SO B env N s) (x : Byte) : SO B env N (s.putc env x).1 := by
  unfold Stack.putc
  split
  · exact h
  next hl =>
  have hl : s.tnl.lock = 0 := Decidable.not_not.1 hl
  split
  · next ha =>
    have h1 : SO B env N (s.setT fun t => { t with tmp := t.tmp ++ [x] }) := (by exact ⟨h.node, h.comp, h.own, h.lock, h.ring, h.q, h.info⟩)
    have hl : (s.setT fun t => { t with tmp := t.tmp ++ [x] }).tnl.lock = 0 := hl
    have ha : (s.setT fun t => { t with tmp := t.tmp ++ [x] }).tnl.state = .active := ha
    simp only
    generalize (s.setT fun t => { t with tmp := t.tmp ++ [x] }) = s1 at *
    split
    · next h8 =>
      have hn := h1.own (by rw [ha]; simp)
      obtain ⟨n, q, e, g1, g2, g3, g4, g5⟩ := enqueue_parts (env := env) (s := s1.setT fun t => { t with lock := t.lock + 1 })
        (dlc := s1.tnl.tmp.length) (src := s1.tnl.tmp) h1.node h1.ring h1.q hn
      unfold Stack.putcRetry
      simp only
      have e' : ((s1.setT fun t => { t with lock := t.lock + 1 }).enqueue env (s1.setT fun t => { t with lock := t.lock + 1 }).tnl.own
          (s1.setT fun t => { t with lock := t.lock + 1 }).tnl.tmp.length (s1.setT fun t => { t with lock := t.lock + 1 }).tnl.tmp) =
        ((s1.setT fun t => { t with lock := t.lock + 1 }).enqueue env s1.tnl.own s1.tnl.tmp.length s1.tnl.tmp) := rfl
      rw [e']
      generalize ((s1.setT fun t => { t with lock := t.lock + 1 }).enqueue env s1.tnl.own s1.tnl.tmp.length s1.tnl.tmp) = r at *
      split
      · rw [e]
        refine ⟨g1, h1.comp, h1.own, ?_, g2, g3, h1.info⟩
        intro hc
        refine absurd ?_ hc
        show s1.tnl.lock + 1 - 1 = 0
        omega
      · next hne =>
        have g6 : 4 ≤ s1.q.state := (g5 hne).resolve_left (by omega)
        rw [e]
        refine ⟨g1, h1.comp, h1.own, ?_, g2, g3, h1.info⟩
        intro _
        show 4 ≤ q.state
        rw [g4 g6]; exact g6
    · exact h1
  · exact h

theorem SO.retry {s : Stack} (h : SO B env N s) (hl : s.tnl.lock ≠ 0) : SO B env N (s.putcRetry env).1 := by
  have h4 := h.lock hl
  have e : s.enqueue env s.tnl.own s.tnl.tmp.length s.tnl.tmp = (s, E.asyncDataTxOverflow) := by
    unfold Stack.enqueue; rw [if_pos h4]
  unfold Stack.putcRetry
  rw [e]
  exact h

theorem SO.processTx {s : Stack} (h : SO B env N s) (now : Nat) : SO B env N (s.processTx env now).1 := by
  unfold Stack.processTx
  split
  · exact h
  split
  · next ha =>
    split
    · simp only
      have h1 : SO B env N (s.enqueue env s.tnl.own s.tnl.tmp.length s.tnl.tmp).1 := h.enqueue _ _ (h.own (by rw [ha]; simp))
      generalize s.enqueue env s.tnl.own s.tnl.tmp.length s.tnl.tmp = r at *
      split
      · exact (by exact ⟨h1.node, h1.comp, h1.own, h1.lock, h1.ring, h1.q, h1.info⟩)
      · exact h1
    · exact h
  · exact h

/-! ## Search -/

theorem SO.setSlv {s : Stack} (h : SO B env N s) {v : Slave} (hv : NodeP B env N v.node) : SO B env N (s.setSlv env v) := by
  refine ⟨hv, h.comp, h.own, h.lock, h.ring, h.q, ?_⟩
  show (if _ then s.info else s.info.setBaud env.crc v.link.stored).d.mode = 3 → N (if _ then s.info else s.info.setBaud env.crc v.link.stored).d.comp.nr
  split
  · exact h.info
  · exact h.info

theorem SO.link {s : Stack} (h : SO B env N s) (l : Link) : SO B env N { s with slv := { s.slv with link := l } } :=
  ⟨h.node, h.comp, h.own, h.lock, h.ring, h.q, h.info⟩

theorem SO.lcsa {s : Stack} (h : SO B env N s) (l : LState) : SO B env N { s with lcsa := l } :=
  ⟨h.node, h.comp, h.own, h.lock, h.ring, h.q, h.info⟩

theorem SO.nodeMode {s : Stack} (h : SO B env N s) (m : Mode) : SO B env N (s.nodeMode env m).1 := h.link _

theorem SO.baudRate {s : Stack} (h : SO B env N s) (b : Nat) : SO B env N (s.baudRate env b).1 := SO.setSlv h h.node

theorem SO.notify {s : Stack} (h : SO B env N s) (f : Option Nat) (c : Nat → ACall) : SO B env N (s.notify f c) := by
  unfold Stack.notify
  split
  · exact h
  · exact h.logCall _

theorem SO.nextBaud {s : Stack} (h : SO B env N s) (now : Nat) : SO B env N (s.nextBaud env now) := by
  unfold Stack.nextBaud
  simp only
  generalize (if s.rc.idx < 3 then s.rc.idx + 1 else 0) = i
  have h1 := (h.nodeMode .stopped).baudRate (rcTab.getD i 0)
  refine SO.setR ?_
  split
  · exact h1.nodeMode _
  · exact h1

theorem SO.rcOn {s : Stack} (h : SO B env N s) (now : Nat) (first : Bool) : SO B env N (s.rcOn env now first) := by
  unfold Stack.rcOn
  refine SO.setR ?_
  split
  · exact ((h.lcsa _).setR).setR
  · exact ((h.lcsa _).setR).nextBaud _

theorem SO.reportUnaware {s : Stack} (h : SO B env N s) (e : Option Err) : SO B env N (s.reportUnaware env e) := by
  unfold Stack.reportUnaware
  split
  · exact h
  · split
    · refine h.setNode (h.node.congr (fun _ => same_refl _) rfl rfl rfl rfl h.node.1.defs rfl)
    · exact h

theorem SO.rcDone {s : Stack} (h : SO B env N s) (b : Nat) : SO B env N (s.rcDone env b) := by
  unfold Stack.rcDone
  split
  · exact ((h.lcsa _).reportUnaware _).notify _ _
  · exact ((h.lcsa _).reportUnaware _).notify _ _
  · exact ((h.lcsa _).reportUnaware _).notify _ _
  · exact (h.lcsa _).notify _ _
  · exact h.lcsa _

theorem SO.rcOff {s : Stack} (h : SO B env N s) (now : Nat) : SO B env N (s.rcOff env now) := by
  have h1 : SO B env N (((s.setR fun c => { c with process := false }).nodeMode env .stopped).1.baudRate env s.rc.back).1 :=
    ((h.setR).nodeMode _).baudRate _
  unfold Stack.rcOff
  simp only
  generalize (Stack.baudRate env _ s.rc.back) = r at *
  refine SO.setR ?_
  have h2 : SO B env N (if r.2 = E.ok then r.1.nodeMode env .operational else r).1 := by
    split
    · exact h1.nodeMode _
    · exact h1
  generalize (if r.2 = E.ok then r.1.nodeMode env .operational else r) = r2 at *
  split
  · exact (SO.setR (h2.lcsa _)).rcDone _
  · exact SO.setR h2

theorem SO.rcStartup {s : Stack} (h : SO B env N s) (now : Nat) : SO B env N (s.rcStartup env now) := by
  unfold Stack.rcStartup
  split
  · exact (SO.setR (h.notify _ _)).rcOn _ _
  · exact h

theorem SO.rcError {s : Stack} (h : SO B env N s) (now : Nat) (c : RCause) : SO B env N (s.rcError env now c) := by
  unfold Stack.rcError
  split
  · exact (SO.setR (((h.notify _ _).nodeMode _).nodeMode _)).rcOn _ _
  · exact h

theorem SO.rcSwitch {s : Stack} (h : SO B env N s) (now : Nat) : SO B env N (s.rcSwitch env now) := by
  unfold Stack.rcSwitch
  split
  · exact SO.setR (h.nextBaud _)
  · exact h

theorem SO.rcProcess {s : Stack} (h : SO B env N s) (now : Nat) (i : Pending) (lec : Lec) : SO B env N (s.rcProcess env now i lec) := by
  unfold Stack.rcProcess
  split
  · exact h
  split
  · split
    · exact h.setR.rcOff _
    split
    · exact h.setR.rcOff _
    split
    · exact h.setR.rcOn _ _
    split
    · exact h.nextBaud _
    · exact h
  · split
    · exact h.rcOff _
    split
    · exact h.rcSwitch _
    split
    · exact h.rcOff _
    · simp only
      split
      · exact h.setR.rcOff _
      · exact h.setR
    · split
      · exact h.rcOff _
      · exact h
    · exact h.setR.rcSwitch _
  · simp only
    split
    · exact h.setR.setR
    · exact h.setR
  · exact h

theorem SO.hwError {s : Stack} (h : SO B env N s) (now : Nat) (bus : BusState) (lec : Lec) : SO B env N (s.hwError env now bus lec) := by
  unfold Stack.hwError
  simp only
  have h1 : SO B env N (s.hwBusOff env now bus lec) := by
    unfold hwBusOff; split
    · exact ((h.nodeMode _).nodeMode _).rcError _ _
    · exact h
  generalize s.hwBusOff env now bus lec = s1 at *
  have h2 : SO B env N (s1.hwPassive env now bus) := by
    unfold hwPassive; split
    · exact (h1.link _).rcError _ _
    · exact h1
  generalize s1.hwPassive env now bus = s2 at *
  have h3 : SO B env N (if (bus ≠ .active ∨ lec ≠ .none) ∧ s.rc.state = .off then s2 else s) := by
    split
    · exact h2
    · exact h
  generalize (if (bus ≠ .active ∨ lec ≠ .none) ∧ s.rc.state = .off then s2 else s) = s3 at *
  split
  · exact h3.rcProcess _ _ _
  · exact h3

theorem SO.process {s : Stack} (h : SO B env N s) (now : Nat) (bus : BusState) (lec : Lec) : SO B env N (s.process env now bus lec) := by
  unfold Stack.process
  refine SO.processTx (SO.hwError ?_ _ _ _) _
  obtain ⟨p, hp⟩ := Slave.trigger_eq env.toEnv s.slv now
  rw [hp]
  exact ⟨h.node, h.comp, h.own, h.lock, h.ring, h.q, h.info⟩

/-- the number in an identifier -/
theorem nr_of_id (id n : Nat) (h : sysNrOfId id = n ∨ (asyncNrOfId id = n ∧ 125 ≤ n ∧ n ≤ 127)) : id % 512 / 4 + 1 = n := by
  rcases h with h | ⟨h, h1, h2⟩
  · unfold sysNrOfId at h; omega
  · unfold asyncNrOfId u16 at h
    omega

theorem SO.rx (he : AEnvO env N) {s s' : Stack} (h : SO B env N s) {now obj dlc id : Nat} {ext : Bool} {data : List Byte}
    (hr0 : (s.slv.node.rows 0).typ ≠ []) (hid : ∀ n, 125 ≤ n → n ≤ 127 → id % 512 / 4 + 1 = n → N n)
    (e : s.rx env now obj dlc id ext data = some s') : SO B env N s' := by
  unfold Stack.rx at e
  simp only at e
  split at e
  · injection e with e; rw [← e]; exact h.setR
  split at e
  · injection e with e; rw [← e]; exact h.setR
  · simp only [Option.map_eq_some_iff] at e
    obtain ⟨v, hv, e⟩ := e
    rw [← e]
    have hn : NodeP B env N v.node := Slave.frame_owned he.envo h.node hr0 (fun n a b c => hid n a b (nr_of_id id n (.inl c))) hv
    have h1 : SO B env N (Stack.setSlv env (s.setR fun c => { c with pending := .msg }) v) := h.setR.setSlv hn
    exact ((h1.processTx now).ctrlRx he obj (fun n a b c => hid n a b (nr_of_id id n (.inr ⟨c, a, b⟩))) data).dataRx he obj dlc data

theorem info_owned {i : XInfo} (h : i.d.mode = 3 → N i.d.comp.nr) : (i.init env.crc).1.d.mode = 3 → N (i.init env.crc).1.d.comp.nr := by
  unfold XInfo.init
  split
  · exact h
  · intro e; have e : (4 : Nat) = 3 := e
    cases e

theorem SO.init {s : Stack} (h : SO B env N s) (baud : Nat) : SO B env N (s.init env baud).1 := by
  unfold Stack.init
  simp only
  have h0 : SO B env N { s with info := (s.info.init env.crc).1 } := ⟨h.node, h.comp, h.own, h.lock, h.ring, h.q, info_owned h.info⟩
  generalize s.info.init env.crc = i at *
  have h1 : SO B env N (if i.2 ≠ E.ok ∧ env.sysErr = true then
    Stack.setNode { s with info := i.1 } { s.slv.node with
      errq := (s.slv.node.errq.sendFull env.qSize (i.2.setWidth 32) 0 10 7 2 (s.slv.node.rows 0).nr).1 }
    else { s with info := i.1 }) := by
    split
    · exact h0.setNode (h0.node.congr (fun _ => same_refl _) rfl rfl rfl rfl h0.node.1.defs rfl)
    · exact h0
  generalize (if i.2 ≠ E.ok ∧ env.sysErr = true then _ else _ : Stack) = s1 at *
  generalize hs2 : (if s1.info.d.mode = 3 ∨ s1.info.d.mode = 2 ∨ s1.info.d.mode = 0 then { s1 with lcsa := LState.download } else s1) = s2
  have h2 : SO B env N s2 := by
    rw [← hs2]; split
    · exact h1.lcsa _
    · exact h1
  refine h2.setSlv ?_
  unfold Slave.init
  simp only
  have h3 := h2.node.init
  generalize s2.slv.node.init env.toEnv = r at *
  split <;> exact h3

theorem SO.startAck {s : Stack} (h : SO B env N s) : SO B env N (s.startAck env) := by
  unfold Stack.startAck
  split
  · next hm =>
    have h1 := h.endAckn (h.info hm)
    exact ⟨h1.node, h1.comp, h1.own, h1.lock, h1.ring, h1.q, fun e => by have e : (4 : Nat) = 3 := e; cases e⟩
  · exact h

theorem SO.start {s : Stack} (h : SO B env N s) (now : Nat) : SO B env N (s.start env now).1 := by
  unfold Stack.start
  simp only
  generalize hr : (if s.lcsa = .download then _ else _ : Stack × Err) = r
  have h1 : SO B env N r.1 := by
    rw [← hr]
    split
    · generalize hq : Stack.nodeMode env _ .operational = q
      have h2 : SO B env N q.1 := by
        rw [← hq]
        exact (SO.setR (((h.setR).nodeMode _).baudRate _)).nodeMode _
      split
      · exact h2.lcsa _
      · exact h2
    · exact ((((h.setR).nodeMode _).baudRate _).rcStartup _).nodeMode _
  split
  · exact h1.startAck.lcsa _
  · exact h1

/-- inputs that use numbers of the node only -/
def SInO (env : AEnv) (N : Nat → Prop) (s : Stack) : SIn → Prop
  | .rx _ _ _ id _ _ => (s.slv.node.rows 0).typ ≠ [] ∧ ∀ n, 125 ≤ n → n ≤ 127 → id % 512 / 4 + 1 = n → N n
  | .api (.table o) => OpO env.toEnv N s.slv.node o
  | .dlStart c => N c.nr
  | .act a => ActO N a
  | .ulData .. => s.x.comp.nr ≠ 0
  | .enqueue nr _ _ => N nr
  | .info o => (s.info.step env.crc o).d.mode = 3 → N (s.info.step env.crc o).d.comp.nr
  | _ => True

/-- a history that uses numbers of the node only -/
def UsesOnly (env : AEnv) (N : Nat → Prop) : Stack → List SIn → Prop
  | _, [] => True
  | s, i :: is => SInO env N s i ∧ ∀ s', step env s i = some s' → UsesOnly env N s' is

theorem api_in {s : Stack} {i : In} (h : SInO env N s (.api i)) (ha : isApi i = true) : Slave.InO env.toEnv N s.slv i := by
  cases i <;> first | exact h | trivial | cases ha

theorem SO.step (he : AEnvO env N) {s s' : Stack} {i : SIn} (h : SO B env N s) (hi : SInO env N s i) (e : Stack.step env s i = some s') : SO B env N s' := by
  have same : ∀ {t : Stack}, some t = some s' → SO B env N t → SO B env N s' := by
    intro t e ht; injection e with e; rw [← e]; exact ht
  cases i with
  | rx now obj dlc id ext data => exact h.rx he hi.1 hi.2 e
  | process now bus lec => exact same e (h.process now bus lec)
  | init baud => exact same e (h.init baud)
  | start now => exact same e (h.start now)
  | setState l => exact same e (h.lcsa l)
  | setBaud b => exact same e (h.baudRate b)
  | api i =>
    simp only [Stack.step] at e
    split at e
    · simp only [Option.map_eq_some_iff] at e
      obtain ⟨v, hv, e⟩ := e
      rw [← e]
      exact ⟨Slave.step_owned he.envo h.node (api_in hi ‹_›) hv, h.comp, h.own, h.lock, h.ring, h.q, h.info⟩
    · exact same e h
  | hnd k f =>
    refine same e ?_
    unfold setHnd
    split
    · exact (by exact ⟨h.node, h.comp, h.own, h.lock, h.ring, h.q, h.info⟩)
    · exact h
  | dlStart c => exact same e (h.dlStart he hi)
  | act a => exact same e (h.act a hi)
  | ulData fuel data => exact h.ulData hi fuel data e
  | putc x => exact same e (h.putc x)
  | retry =>
    refine same e ?_
    split
    · exact h
    · next hl => exact h.retry hl
  | xonOff code =>
    refine same e ?_
    unfold xonOff
    split
    · exact h
    · next ha => exact h.ctrlTx (h.own (by rw [Decidable.not_not.1 ha]; simp)) _
  | shutdown =>
    refine same e ?_
    unfold tnlShutdown
    split
    · exact h
    · next ha =>
      have hn := h.own (by rw [Decidable.not_not.1 ha]; simp)
      exact SO.ctrlTx (by exact ⟨h.node, h.comp, fun _ => hn, h.lock, h.ring, h.q, h.info⟩) (by exact hn) _
  | enqueue nr dlc src => exact same e (h.enqueue _ _ hi)
  | info o => exact same e ⟨h.node, h.comp, h.own, h.lock, h.ring, h.q, hi⟩
  | rcCb k f =>
    refine same e ?_
    unfold setRcCb
    split <;> split <;> first | exact h.setR | exact h

theorem SO.run (he : AEnvO env N) (is : List SIn) : ∀ {s s' : Stack}, SO B env N s → UsesOnly env N s is → Stack.run env s is = some s' → SO B env N s' := by
  induction is with
  | nil => intro s s' h _ e; injection e with e; rw [← e]; exact h
  | cons i is ih =>
    intro s s' h hi e
    simp only [Stack.run, Option.bind_eq_some_iff] at e
    obtain ⟨t, ht, e⟩ := e
    exact ih (h.step he hi.1 ht) (hi.2 t ht) e

theorem SO.boot (mem : Nat → List Byte) {info : XInfo} (hN : Numbers N) (hi : info.d.mode = 3 → N info.d.comp.nr) : SO [] env N (Stack.boot mem info) := by
  refine ⟨⟨⟨?_, ?_, ?_, ?_, ?_, ?_, ?_, ?_, ?_, ?_, hN⟩, ?_⟩, ?_, ?_, ?_, ?_, ?_, hi⟩
  · intro i _
    refine .inr ⟨rfl, ?_⟩
    show 125 ≤ (if i = 0 then 125 else if i = 1 then 126 else 127) ∧ (if i = 0 then 125 else if i = 1 then 126 else 127) ≤ 127
    split
    · decide
    split <;> decide
  · intro i hi; cases hi
  · exact fun _ h => h.elim
  · exact fun _ h => h.elim
  · exact fun _ => rfl
  · exact fun _ => Nat.zero_le _
  · exact fun _ => Nat.zero_le _
  · intro i _ j hj; cases hj
  · intro p hp
    have hp : (0#32 : BitVec 32).getLsbD p = true := hp
    simp at hp
  · intro o d hd; cases hd
  · exact ⟨[], rfl, fun f ok hm => by cases hm⟩
  · exact .inl rfl
  · exact fun h => absurd rfl h
  · exact fun h => absurd rfl h
  · exact ⟨(by decide : 0 < 4), (by decide : 0 ≤ 4), (by decide : 0 = (0 + 0) % 4)⟩
  · intro f hf; cases hf

end Stack
end LiCan
