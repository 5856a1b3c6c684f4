import Verif.Model.StackRun
import Verif.Lemmas.SlaveBase
/-! # What the transfer part can change -/
namespace LiCan
namespace Stack

/-- a call that tells the application about a baud rate search -/
def ofSearch : ACall → Bool
  | .onStart _ | .onStop .. | .suStart _ | .suStop .. => true
  | _ => false

/-- an asynchronous control frame or a call into the application that is not about a baud rate search -/
def AEv (e : Ev) : Prop := (∃ c, e = .app c ∧ ofSearch c = false) ∨ ∃ nr d ok, e = .frame ⟨asyncCtrlTxId nr, 8, d⟩ ok

/-- the node only sent control frames and called the application -/
def Comm (n n' : Node) : Prop :=
  ∃ ext k, n' = { n with log := ext ++ n.log, sendN := k } ∧ ∀ e ∈ ext, AEv e

theorem Comm.refl (n : Node) : Comm n n := ⟨[], n.sendN, rfl, fun _ h => by cases h⟩

theorem Comm.trans {a b c : Node} (h : Comm a b) (g : Comm b c) : Comm a c := by
  obtain ⟨e1, k1, rfl, p1⟩ := h
  obtain ⟨e2, k2, rfl, p2⟩ := g
  refine ⟨e2 ++ e1, k2, ?_, fun e he => (List.mem_append.1 he).elim (p2 e) (p1 e)⟩
  simp [List.append_assoc]

theorem Comm.light {a b : Node} (h : Comm a b) : Light a b := by
  obtain ⟨e, k, rfl, _⟩ := h
  exact ⟨rfl, rfl, rfl, rfl, rfl, rfl, rfl, rfl⟩

theorem Comm.errq {a b : Node} (h : Comm a b) : b.errq = a.errq := by
  obtain ⟨e, k, rfl, _⟩ := h; rfl
theorem Comm.mem {a b : Node} (h : Comm a b) : b.mem = a.mem := by
  obtain ⟨e, k, rfl, _⟩ := h; rfl
theorem Comm.ub {a b : Node} (h : Comm a b) : b.ub = a.ub := by
  obtain ⟨e, k, rfl, _⟩ := h; rfl

/-- only the transfer variables, the log and the counters of calls changed -/
structure Quiet (s s' : Stack) : Prop where
  node : Comm s.slv.node s'.slv.node
  slv : s'.slv = { s.slv with node := s'.slv.node }
  tnl : s'.tnl = s.tnl
  q : s'.q = s.q
  rc : s'.rc = s.rc
  info : s'.info = s.info
  lcsa : s'.lcsa = s.lcsa
  hnd : s'.x.hnd = s.x.hnd

theorem Quiet.refl (s : Stack) : Quiet s s := ⟨.refl _, rfl, rfl, rfl, rfl, rfl, rfl, rfl⟩

theorem Quiet.trans {a b c : Stack} (h : Quiet a b) (g : Quiet b c) : Quiet a c :=
  ⟨h.node.trans g.node, by rw [g.slv, h.slv], g.tnl.trans h.tnl, g.q.trans h.q, g.rc.trans h.rc,
   g.info.trans h.info, g.lcsa.trans h.lcsa, g.hnd.trans h.hnd⟩

theorem Quiet.setX (s : Stack) (f : XLoad → XLoad) (hf : ∀ x, (f x).hnd = x.hnd) : Quiet s (s.setX f) :=
  ⟨.refl _, rfl, rfl, rfl, rfl, rfl, rfl, hf _⟩

theorem Quiet.x {s0 s : Stack} (h : Quiet s0 s) (f : XLoad → XLoad) (hf : ∀ x, (f x).hnd = x.hnd) : Quiet s0 (s.setX f) :=
  h.trans (.setX s f hf)

theorem Quiet.tx {s0 s : Stack} (h : Quiet s0 s) (env : AEnv) (nr : Nat) (d : List Byte) : Quiet s0 (s.ctrlTx env nr d) :=
  h.trans ⟨⟨[_], _, rfl, fun e he => by rw [List.mem_singleton.1 he]; exact Or.inr ⟨nr, d, _, rfl⟩⟩, rfl, rfl, rfl, rfl, rfl, rfl, rfl⟩

theorem Quiet.ctrlTx (env : AEnv) (s : Stack) (nr : Nat) (d : List Byte) : Quiet s (s.ctrlTx env nr d) :=
  ⟨⟨[_], _, rfl, fun e he => by rw [List.mem_singleton.1 he]; exact Or.inr ⟨nr, d, _, rfl⟩⟩, rfl, rfl, rfl, rfl, rfl, rfl, rfl⟩

theorem Quiet.logCall (s : Stack) (c : ACall) (hc : ofSearch c = false := by rfl) : Quiet s (s.logCall c) :=
  ⟨⟨[_], _, rfl, fun e he => by rw [List.mem_singleton.1 he]; exact Or.inl ⟨c, rfl, hc⟩⟩, rfl, rfl, rfl, rfl, rfl, rfl, rfl⟩

theorem Quiet.log {s0 s : Stack} (h : Quiet s0 s) (c : ACall) (hc : ofSearch c = false := by rfl) : Quiet s0 (s.logCall c) :=
  h.trans (.logCall s c hc)

theorem Quiet.term {s0 s : Stack} (h : Quiet s0 s) (env : AEnv) (nr : Nat) (e : Err) : Quiet s0 (s.termination env nr e) := by
  unfold Stack.termination
  refine Quiet.x (Quiet.tx (Quiet.x h _ ?_) env nr _) _ ?_ <;> exact fun _ => rfl

theorem Quiet.endA {s0 s : Stack} (h : Quiet s0 s) (env : AEnv) (nr : Nat) : Quiet s0 (s.endAckn env nr) := by
  unfold Stack.endAckn
  refine Quiet.x (Quiet.tx (Quiet.x h _ ?_) env nr _) _ ?_ <;> exact fun _ => rfl

theorem Quiet.startA {s0 s : Stack} (h : Quiet s0 s) (env : AEnv) (nr m : Nat) (d : Byte) :
    Quiet s0 (s.startAckn env nr m d) := by
  unfold Stack.startAckn
  refine Quiet.tx (Quiet.x h _ ?_) env nr _; exact fun _ => rfl

theorem Quiet.termination (env : AEnv) (s : Stack) (nr : Nat) (e : Err) : Quiet s (s.termination env nr e) :=
  (Quiet.refl s).term env nr e

theorem Quiet.act (env : AEnv) (s : Stack) (a : Act) : Quiet s (s.act env a) := by
  cases a with
  | startAckn nr m d => exact (Quiet.refl s).startA env nr m d
  | endAckn nr => exact (Quiet.refl s).endA env nr
  | termination nr e => exact .termination env s nr e
  | versionAnswer nr i c d => exact .ctrlTx env s nr _
  | infoAnswer nr i z => exact .ctrlTx env s nr _
  | uloadEnd nr => exact .ctrlTx env s nr _
  | get => simp only [Stack.act]; refine Quiet.log (Quiet.x (.refl s) _ ?_) _; exact fun _ => rfl
  | store => simp only [Stack.act]; refine Quiet.setX s _ ?_; exact fun _ => rfl
  | restore => simp only [Stack.act]; refine Quiet.setX s _ ?_; exact fun _ => rfl
  | remove n => simp only [Stack.act]; refine Quiet.setX s _ ?_; exact fun _ => rfl
  | edit f => simp only [Stack.act]; refine Quiet.setX s _ ?_; exact fun _ => rfl
  | editVer f => simp only [Stack.act]; refine Quiet.setX s _ ?_; exact fun _ => rfl

theorem Quiet.acts (env : AEnv) (l : List Act) : ∀ s : Stack, Quiet s (l.foldl (Stack.act env) s) := by
  induction l with
  | nil => exact fun s => .refl s
  | cons a l ih => exact fun s => (Quiet.act env s a).trans (ih _)

theorem Quiet.callApp (env : AEnv) (s : Stack) (c : ACall) (hc : ofSearch c = false := by rfl) : Quiet s (s.callApp env c).1 := by
  refine Quiet.trans ?_ (Quiet.acts env _ _)
  exact ⟨(Quiet.logCall s c hc).node, rfl, rfl, rfl, rfl, rfl, rfl, rfl⟩

theorem Quiet.callHnd (env : AEnv) (s : Stack) (h : Hnd) (c : Component) : Quiet s (s.callHnd env h c).1 := by
  unfold Stack.callHnd
  cases s.x.hnd h with
  | none => exact .refl s
  | some f => exact .callApp env s _

theorem Quiet.callPort (env : AEnv) (s : Stack) (c : ACall) (hc : ofSearch c = false := by rfl) : Quiet s (s.callPort env c).1 := .callApp env s c hc

/-- the pattern "call a handler, then answer or terminate" -/
theorem Quiet.versionPre (env : AEnv) (s : Stack) (nr : Nat) : Quiet s (s.versionPre env nr).1 := by
  unfold Stack.versionPre
  simp only
  have h1 : Quiet s (if s.x.hnd .dlVersion = none then s
      else s.setX fun x => { x with vcomp := { x.vcomp with nr := nr } }) := by
    split
    · exact .refl s
    · exact .setX s _ fun _ => rfl
  generalize (if s.x.hnd .dlVersion = none then s
      else s.setX fun x => { x with vcomp := { x.vcomp with nr := nr } }) = s1 at h1 ⊢
  have h2 := h1.trans (Quiet.callHnd env s1 .dlVersion s1.x.vcomp)
  generalize s1.callHnd env .dlVersion s1.x.vcomp = r at h2 ⊢
  have h3 := h2.trans (Quiet.setX r.1 (fun x => { x with vcomp := { x.vcomp with name := noName } }) fun _ => rfl)
  split
  · split
    · exact h3.trans (.ctrlTx env _ nr _)
    · exact h3
  · exact h3.term env nr _

theorem Quiet.infoPre (env : AEnv) (s : Stack) (nr : Nat) : Quiet s (s.infoPre env nr).1 := by
  unfold Stack.infoPre
  simp only
  have h1 : Quiet s (if s.x.hnd .ulInfo = none then s
      else s.setX fun x => { x with comp := { x.comp with nr := nr } }) := by
    split
    · exact .refl s
    · exact .setX s _ fun _ => rfl
  generalize (if s.x.hnd .ulInfo = none then s
      else s.setX fun x => { x with comp := { x.comp with nr := nr } }) = s1 at h1 ⊢
  have h2 := h1.trans (Quiet.callHnd env s1 .ulInfo s1.x.comp)
  generalize s1.callHnd env .ulInfo s1.x.comp = r at h2 ⊢
  have h3 := h2.trans (Quiet.setX r.1 (fun x => { x with comp := { x.comp with name := noName } }) fun _ => rfl)
  split
  · split
    · exact h3.trans (.ctrlTx env _ nr _)
    · exact h3
  · exact h3.term env nr _

theorem Quiet.dlStart1 (s : Stack) (src : List Byte) : Quiet s (s.dlStart1 src) := by
  unfold Stack.dlStart1
  split
  · exact .refl s
  · exact .setX s _ fun _ => rfl

theorem Quiet.dlStart2 (env : AEnv) (s : Stack) (nr tp : Nat) (src : List Byte) :
    Quiet s (s.dlStart2 env nr tp src).1 := by
  unfold Stack.dlStart2
  split
  · exact .termination env s nr _
  · simp only
    refine Quiet.trans (Quiet.setX s (fun x => { x with busy := true, comp := { x.comp with
      name := x.comp.name.take 7 ++ [b8 src 1]
      crc := Slave.at8 src 2 * 256 + Slave.at8 src 3
      dlId := Slave.at8 src 4 * 16777216 + Slave.at8 src 5 * 65536 + Slave.at8 src 6 * 256 + Slave.at8 src 7
      nr := nr
      typ := (s.slv.node.rows tp).typ } }) fun _ => rfl) ?_
    generalize s.setX _ = s1
    have h2 := Quiet.callHnd env s1 .dlStartReq s1.x.comp
    generalize s1.callHnd env .dlStartReq s1.x.comp = r at h2 ⊢
    split
    · exact h2
    · exact h2.term env nr _

theorem Quiet.dlData (env : AEnv) (s : Stack) (nr : Nat) (src : List Byte) : Quiet s (s.dlData env nr src).1 := by
  unfold Stack.dlData
  simp only
  split
  · dsimp only; refine Quiet.x (Quiet.x (.refl s) _ ?_) _ ?_ <;> exact fun _ => rfl
  · refine Quiet.term (Quiet.x (.refl s) _ ?_) env nr _; exact fun _ => rfl

theorem Quiet.dlBlockEnd (env : AEnv) (s : Stack) (nr : Nat) (src : List Byte) :
    Quiet s (s.dlBlockEnd env nr src).1 := by
  unfold Stack.dlBlockEnd
  simp only
  split
  · generalize sub16 s.x.bytes (Slave.at8 src 1 * 256 + Slave.at8 src 2) = rest
    have h1 : Quiet s (if 0 < rest then s.setX fun x => { x with buf := (x.buf.removeBytes env.bufSize rest).1 } else s) := by
      split
      · exact .setX s _ fun _ => rfl
      · exact .refl s
    generalize (if 0 < rest then s.setX fun x => { x with buf := (x.buf.removeBytes env.bufSize rest).1 } else s) = s1 at h1 ⊢
    have h2 := h1.trans (Quiet.callHnd env s1 .dlBlock s1.x.comp)
    generalize s1.callHnd env .dlBlock s1.x.comp = r at h2 ⊢
    split
    · dsimp only; refine Quiet.x (s := r.1.blockAckn env nr) (h2.tx env nr _) _ ?_; exact fun _ => rfl
    · exact h2.term env nr _
  · exact .termination env s nr _

theorem Quiet.dlEnd (env : AEnv) (s : Stack) (nr : Nat) : Quiet s (s.dlEnd env nr).1 := by
  unfold Stack.dlEnd
  simp only
  have h2 := Quiet.callHnd env s .dlEnd s.x.comp
  generalize s.callHnd env .dlEnd s.x.comp = r at h2 ⊢
  split
  · split
    · exact h2.endA env nr
    · exact h2
  · exact h2.term env nr _

theorem Quiet.dlStart (env : AEnv) (s : Stack) (c : Component) : Quiet s (s.dlStart env c).1 := by
  unfold Stack.dlStart
  simp only
  refine Quiet.trans (Quiet.setX s (fun x => { x with busy := true }) fun _ => rfl) ?_
  generalize s.setX _ = s1
  have h2 := Quiet.callHnd env s1 .dlStart c
  generalize s1.callHnd env .dlStart c = r at h2 ⊢
  split
  · exact h2.startA env _ _ _
  · exact h2.term env _ _

theorem Quiet.ulStart2 (env : AEnv) (s : Stack) (nr : Nat) (src : List Byte) :
    Quiet s (s.ulStart2 env nr src).1 := by
  unfold Stack.ulStart2
  split
  · exact .termination env s nr _
  · simp only
    refine Quiet.trans (Quiet.setX s (fun x => { x with
      busy := true
      maxBytes := Slave.at8 src 2 * 256 + Slave.at8 src 3
      delay := Slave.at8 src 4
      comp := { x.comp with nr := nr, name := x.comp.name.take 7 ++ [b8 src 1] } }) fun _ => rfl) ?_
    generalize s.setX _ = s1
    have h2 := Quiet.callHnd env s1 .ulStart s1.x.comp
    generalize s1.callHnd env .ulStart s1.x.comp = r at h2 ⊢
    split
    · exact h2
    · exact h2.term env nr _

/-- one segment of an upload -/
def ulSeg (env : AEnv) (s : Stack) (seg : List Byte) : Stack :=
  (s.ctrlTx env s.x.comp.nr (0x15 :: seg)).setX fun x => { x with objs := u16 (x.objs + 1) }

theorem ulLoop_succ (env : AEnv) (data : List Byte) (k : Nat) (s : Stack) (old : Nat) (seg : List Byte) :
    Stack.ulLoop env data (k + 1) s old seg =
      if u32 (old + s.x.delay) < env.clock s.clockN then
        let s1 := ulSeg env { s with clockN := s.clockN + 1 } seg
        if s1.x.bytes < data.length then
          Stack.ulLoop env data k { (s1.setX fun x => { x with bytes := (ulFill data s1.x.bytes).2 }) with clockN := s1.clockN + 1 }
            (env.clock s1.clockN) (ulFill data s1.x.bytes).1
        else some { (s1.uloadBlockEnd env s1.x.comp.nr) with clockN := s1.clockN + 1 }
      else Stack.ulLoop env data k { s with clockN := s.clockN + 1 } old seg := rfl

theorem Quiet.clock {s0 s : Stack} (h : Quiet s0 s) (k : Nat) : Quiet s0 { s with clockN := k } :=
  ⟨h.node, h.slv, h.tnl, h.q, h.rc, h.info, h.lcsa, h.hnd⟩

theorem Quiet.seg {s0 s : Stack} (h : Quiet s0 s) (env : AEnv) (seg : List Byte) : Quiet s0 (ulSeg env s seg) := by
  unfold ulSeg
  refine Quiet.x (h.tx env _ _) _ ?_; exact fun _ => rfl

theorem Quiet.ulLoop (env : AEnv) (data : List Byte) (k : Nat) : ∀ (s : Stack) (old : Nat) (seg : List Byte) (s' : Stack),
    Stack.ulLoop env data k s old seg = some s' → Quiet s s' := by
  induction k with
  | zero => intro s old seg s' h; exact absurd h (by simp [Stack.ulLoop])
  | succ k ih =>
    intro s old seg s' h
    rw [ulLoop_succ] at h
    split at h
    · have h1 : Quiet s (ulSeg env { s with clockN := s.clockN + 1 } seg) := ((Quiet.refl s).clock _).seg env seg
      generalize ulSeg env { s with clockN := s.clockN + 1 } seg = s1 at h1 h
      simp only at h
      split at h
      · refine Quiet.trans ?_ (ih _ _ _ _ h)
        refine Quiet.clock (Quiet.x h1 _ ?_) _; exact fun _ => rfl
      · have := Option.some.inj h
        subst this
        exact (h1.tx env _ _).clock _
    · exact ((Quiet.refl s).clock _).trans (ih _ _ _ _ h)

theorem Quiet.ulData (env : AEnv) (k : Nat) (s s' : Stack) (data : List Byte) (h : Stack.ulData env k s data = some s') :
    Quiet s s' := by
  unfold Stack.ulData at h
  simp only at h
  refine Quiet.trans ?_ (Quiet.ulLoop env data k _ _ _ _ h)
  refine Quiet.clock (Quiet.x (.refl s) _ ?_) _; exact fun _ => rfl

end Stack
end LiCan
