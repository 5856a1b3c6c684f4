import Verif.Props.Sessions
/-! # Transfer messages outside a transfer (C134) -/
namespace LiCan
namespace Spec

/-- the four start requests: download 0x13, 0x14, upload 0x1D, 0x1E -/
def IsStart (m : List Byte) : Prop := ∃ c ∈ [0x13, 0x14, 0x1D, 0x1E], m.head? = some c

instance (m : List Byte) : Decidable (IsStart m) := by unfold IsStart; infer_instance

/-- the same stack with another idea of whether a transfer is in progress -/
def flagged (b : Bool) (s : Stack) : Stack := { s with x := { s.x with busy := b } }

/-- control messages, each with the module number it is sent to, one after the other -/
def recvAll (env : AEnv) : Stack → List (Nat × List Byte) → Stack
  | s, [] => s
  | s, m :: ms => recvAll env (s.asyncRx env m.1 m.2).1 ms

/-- a component without a name -/
def Nameless (c : Component) : Prop := c.name = List.replicate 8 0

instance (c : Component) : Decidable (Nameless c) := by unfold Nameless; infer_instance

/-- the application's handlers do not write a name of their own into the component -/
def KeepsName (env : AEnv) : Prop :=
  ∀ k c f, Act.edit f ∈ (env.reply k c).acts → ∀ x : Component, (f x).name = x.name

end Spec
namespace Stack
open Spec
open Slave (at8 byteOf)

variable {env : AEnv}

/-- equal up to the flag -/
def SameF (s t : Stack) : Prop := ∃ b, t = flagged b s

theorem SameF.rfl' (s : Stack) : SameF s s := ⟨s.x.busy, rfl⟩

theorem SameF.act {s t : Stack} (h : SameF s t) (a : Act) : SameF (s.act env a) (t.act env a) := by
  obtain ⟨b, rfl⟩ := h
  cases a with
  | startAckn nr m d => exact ⟨b, rfl⟩
  | endAckn nr => exact ⟨false, rfl⟩
  | termination nr e => exact ⟨false, rfl⟩
  | versionAnswer nr i c d => exact ⟨b, rfl⟩
  | infoAnswer nr i z => exact ⟨b, rfl⟩
  | uloadEnd nr => exact ⟨b, rfl⟩
  | get => exact ⟨b, rfl⟩
  | store => exact ⟨b, rfl⟩
  | restore => exact ⟨b, rfl⟩
  | remove n => exact ⟨b, rfl⟩
  | edit f => exact ⟨b, rfl⟩
  | editVer f => exact ⟨b, rfl⟩

theorem SameF.acts (as : List Act) : ∀ {s t : Stack}, SameF s t → SameF (as.foldl (Stack.act env) s) (as.foldl (Stack.act env) t) := by
  induction as with
  | nil => intro s t h; exact h
  | cons a as ih => intro s t h; exact ih (h.act a)

/-- pairs with the same second part -/
def SameR {α : Type} (p q : Stack × α) : Prop := SameF p.1 q.1 ∧ q.2 = p.2

theorem SameF.callApp {s t : Stack} (h : SameF s t) (c : ACall) : SameR (s.callApp env c) (t.callApp env c) := by
  obtain ⟨b, rfl⟩ := h
  exact ⟨SameF.acts _ ⟨b, rfl⟩, rfl⟩

theorem SameF.callHnd {s t : Stack} (h : SameF s t) (k : Hnd) (c : Component) : SameR (s.callHnd env k c) (t.callHnd env k c) := by
  have hh : t.x.hnd = s.x.hnd := by obtain ⟨b, rfl⟩ := h; rfl
  unfold Stack.callHnd
  rw [hh]
  split
  · exact h.callApp _
  · exact ⟨h, rfl⟩

theorem SameF.callPort {s t : Stack} (h : SameF s t) (c : ACall) : SameR (s.callPort env c) (t.callPort env c) := by
  have := h.callApp (env := env) c
  exact ⟨this.1, congrArg Reply.err this.2⟩

theorem SameF.x {s t : Stack} (h : SameF s t) : t.x.comp = s.x.comp ∧ t.x.vcomp = s.x.vcomp ∧ t.x.buf = s.x.buf ∧
    t.x.bytes = s.x.bytes ∧ t.x.objs = s.x.objs ∧ t.x.hnd = s.x.hnd ∧ t.tnl = s.tnl ∧ t.slv = s.slv := by
  obtain ⟨b, rfl⟩ := h; exact ⟨rfl, rfl, rfl, rfl, rfl, rfl, rfl, rfl⟩

theorem SameF.term {s t : Stack} (h : SameF s t) (nr : Nat) (e : Err) : SameF (s.termination env nr e) (t.termination env nr e) :=
  h.act (.termination nr e)

theorem SameF.ctrlTx {s t : Stack} (h : SameF s t) (nr : Nat) (d : List Byte) : SameF (s.ctrlTx env nr d) (t.ctrlTx env nr d) := by
  obtain ⟨b, rfl⟩ := h; exact ⟨b, rfl⟩

theorem SameF.setT {s t : Stack} (h : SameF s t) (f : Tunnel → Tunnel) : SameF (s.setT f) (t.setT f) := by
  obtain ⟨b, rfl⟩ := h; exact ⟨b, rfl⟩

theorem SameF.versionPre {s t : Stack} (h : SameF s t) (nr : Nat) : SameR (s.versionPre env nr) (t.versionPre env nr) := by
  unfold Stack.versionPre
  have h0 : SameF (if s.x.hnd .dlVersion = none then s else s.setX fun x => { x with vcomp := { x.vcomp with nr := nr } })
      (if t.x.hnd .dlVersion = none then t else t.setX fun x => { x with vcomp := { x.vcomp with nr := nr } }) := by
    rw [h.x.2.2.2.2.2.1]
    split
    · exact h
    · obtain ⟨b, rfl⟩ := h; exact ⟨b, rfl⟩
  dsimp only
  generalize (if s.x.hnd .dlVersion = none then s else s.setX fun x => { x with vcomp := { x.vcomp with nr := nr } }) = s0 at *
  generalize (if t.x.hnd .dlVersion = none then t else t.setX fun x => { x with vcomp := { x.vcomp with nr := nr } }) = t0 at *
  rw [h0.x.2.1]
  have h1 := h0.callHnd (env := env) .dlVersion s0.x.vcomp
  generalize s0.callHnd env .dlVersion s0.x.vcomp = p at *
  generalize t0.callHnd env .dlVersion s0.x.vcomp = q at *
  obtain ⟨⟨b, hb⟩, h1⟩ := h1
  rw [hb, h1]
  split
  · split
    · exact ⟨⟨b, rfl⟩, rfl⟩
    · exact ⟨⟨b, rfl⟩, rfl⟩
  · exact ⟨⟨false, rfl⟩, rfl⟩

theorem SameF.infoPre {s t : Stack} (h : SameF s t) (nr : Nat) : SameR (s.infoPre env nr) (t.infoPre env nr) := by
  unfold Stack.infoPre
  have h0 : SameF (if s.x.hnd .ulInfo = none then s else s.setX fun x => { x with comp := { x.comp with nr := nr } })
      (if t.x.hnd .ulInfo = none then t else t.setX fun x => { x with comp := { x.comp with nr := nr } }) := by
    rw [h.x.2.2.2.2.2.1]
    split
    · exact h
    · obtain ⟨b, rfl⟩ := h; exact ⟨b, rfl⟩
  dsimp only
  generalize (if s.x.hnd .ulInfo = none then s else s.setX fun x => { x with comp := { x.comp with nr := nr } }) = s0 at *
  generalize (if t.x.hnd .ulInfo = none then t else t.setX fun x => { x with comp := { x.comp with nr := nr } }) = t0 at *
  rw [h0.x.1]
  have h1 := h0.callHnd (env := env) .ulInfo s0.x.comp
  generalize s0.callHnd env .ulInfo s0.x.comp = p at *
  generalize t0.callHnd env .ulInfo s0.x.comp = q at *
  obtain ⟨⟨b, hb⟩, h1⟩ := h1
  rw [hb, h1]
  split
  · split
    · exact ⟨⟨b, rfl⟩, rfl⟩
    · exact ⟨⟨b, rfl⟩, rfl⟩
  · exact ⟨⟨false, rfl⟩, rfl⟩

theorem SameF.dlData {s t : Stack} (h : SameF s t) (nr : Nat) (src : List Byte) : SameR (s.dlData env nr src) (t.dlData env nr src) := by
  obtain ⟨b, rfl⟩ := h
  unfold Stack.dlData
  have : (flagged b s).x.buf = s.x.buf := rfl
  rw [this]
  dsimp only
  generalize s.x.buf.addLoop env.bufSize (slice src 1 7) = r
  split
  · exact ⟨⟨b, rfl⟩, rfl⟩
  · exact ⟨⟨false, rfl⟩, rfl⟩

theorem SameF.dlBlockEnd {s t : Stack} (h : SameF s t) (nr : Nat) (src : List Byte) :
    SameR (s.dlBlockEnd env nr src) (t.dlBlockEnd env nr src) := by
  unfold Stack.dlBlockEnd
  dsimp only
  rw [h.x.2.2.2.2.1, h.x.2.2.2.1]
  split
  · have h0 : SameF
        (if 0 < sub16 s.x.bytes (at8 src 1 * 256 + at8 src 2) then s.setX fun x => { x with
          buf := (x.buf.removeBytes env.bufSize (sub16 s.x.bytes (at8 src 1 * 256 + at8 src 2))).1 } else s)
        (if 0 < sub16 s.x.bytes (at8 src 1 * 256 + at8 src 2) then t.setX fun x => { x with
          buf := (x.buf.removeBytes env.bufSize (sub16 s.x.bytes (at8 src 1 * 256 + at8 src 2))).1 } else t) := by
      split
      · obtain ⟨b, rfl⟩ := h; exact ⟨b, rfl⟩
      · exact h
    generalize (if 0 < sub16 s.x.bytes (at8 src 1 * 256 + at8 src 2) then s.setX fun x => { x with
          buf := (x.buf.removeBytes env.bufSize (sub16 s.x.bytes (at8 src 1 * 256 + at8 src 2))).1 } else s) = s0 at *
    generalize (if 0 < sub16 s.x.bytes (at8 src 1 * 256 + at8 src 2) then t.setX fun x => { x with
          buf := (x.buf.removeBytes env.bufSize (sub16 s.x.bytes (at8 src 1 * 256 + at8 src 2))).1 } else t) = t0 at *
    rw [h0.x.1]
    have h1 := h0.callHnd (env := env) .dlBlock s0.x.comp
    generalize s0.callHnd env .dlBlock s0.x.comp = p at *
    generalize t0.callHnd env .dlBlock s0.x.comp = q at *
    obtain ⟨⟨b, hb⟩, h1⟩ := h1
    rw [hb, h1]
    split
    · exact ⟨⟨b, rfl⟩, rfl⟩
    · exact ⟨⟨false, rfl⟩, rfl⟩
  · exact ⟨h.term _ _, rfl⟩

theorem SameF.dlEnd {s t : Stack} (h : SameF s t) (nr : Nat) : SameR (s.dlEnd env nr) (t.dlEnd env nr) := by
  unfold Stack.dlEnd
  dsimp only
  rw [h.x.1]
  have h1 := h.callHnd (env := env) .dlEnd s.x.comp
  generalize s.callHnd env .dlEnd s.x.comp = p at *
  generalize t.callHnd env .dlEnd s.x.comp = q at *
  obtain ⟨h0, h1⟩ := h1
  rw [h1]
  split
  · split
    · exact ⟨h0.act (.endAckn nr), rfl⟩
    · exact ⟨h0, rfl⟩
  · exact ⟨h0.term _ _, rfl⟩

theorem SameF.tnlOpen {s t : Stack} (h : SameF s t) (nr : Nat) (src : List Byte) : SameR (s.tnlOpen env nr src) (t.tnlOpen env nr src) := by
  unfold Stack.tnlOpen
  dsimp only
  rw [h.x.2.2.2.2.2.2.1]
  have h1 := h.callPort (env := env) .tnlOpen
  generalize s.callPort env .tnlOpen = p at *
  generalize t.callPort env .tnlOpen = q at *
  obtain ⟨⟨b, hb⟩, h1⟩ := h1
  rw [hb, h1]
  split
  · split
    · split
      · exact ⟨⟨b, rfl⟩, rfl⟩
      · exact ⟨⟨b, rfl⟩, rfl⟩
    · exact ⟨⟨b, rfl⟩, rfl⟩
  · exact ⟨h.ctrlTx _ _, rfl⟩

theorem SameF.tnlCloseReq {s t : Stack} (h : SameF s t) (nr : Nat) (src : List Byte) :
    SameR (s.tnlCloseReq env nr src) (t.tnlCloseReq env nr src) := by
  unfold Stack.tnlCloseReq
  dsimp only
  have h1 := h.callPort (env := env) .tnlFree
  generalize s.callPort env .tnlFree = p at *
  generalize t.callPort env .tnlFree = q at *
  obtain ⟨⟨b, hb⟩, h1⟩ := h1
  rw [hb, h1]
  split <;> exact ⟨⟨b, rfl⟩, rfl⟩

theorem SameF.tnlReset {s t : Stack} (h : SameF s t) : SameR (s.tnlReset env) (t.tnlReset env) := by
  unfold Stack.tnlReset
  dsimp only
  rw [h.x.2.2.2.2.2.2.1]
  have h1 := h.callPort (env := env) .tnlClear
  generalize s.callPort env .tnlClear = p at *
  generalize t.callPort env .tnlClear = q at *
  split
  · rw [h1.2]
    split
    · exact ⟨(h1.1.callPort (env := env) .tnlXon).1, rfl⟩
    · exact h1
  · exact ⟨h, rfl⟩

theorem SameF.tnlCloseAck {s t : Stack} (h : SameF s t) (nr : Nat) (src : List Byte) :
    SameR (s.tnlCloseAck env nr src) (t.tnlCloseAck env nr src) := by
  unfold Stack.tnlCloseAck
  dsimp only
  rw [h.x.2.2.2.2.2.2.1]
  have h1 := h.callPort (env := env) .tnlFree
  split
  · exact ⟨h1.1.setT fun t => { t with own := 125, prim := 125, sec := 125, state := .free }, h1.2⟩
  · exact ⟨h, rfl⟩

theorem SameF.tnlCloseDeny {s t : Stack} (h : SameF s t) (nr : Nat) (src : List Byte) :
    SameF (s.tnlCloseDeny nr src) (t.tnlCloseDeny nr src) := by
  unfold Stack.tnlCloseDeny
  rw [h.x.2.2.2.2.2.2.1]
  split
  · exact h.setT _
  · exact h

theorem SameF.tnlX {s t : Stack} (h : SameF s t) (src : List Byte) (c : ACall) : SameF (s.tnlX env src c) (t.tnlX env src c) := by
  unfold Stack.tnlX
  rw [h.x.2.2.2.2.2.2.1]
  split
  · exact (h.callPort c).1
  · exact h

theorem SameF.setX {s t : Stack} (h : SameF s t) (f : XLoad → XLoad) (hf : ∀ x b, f { x with busy := b } = { f x with busy := b }) :
    SameF (s.setX f) (t.setX f) := by
  obtain ⟨b, rfl⟩ := h
  refine ⟨b, ?_⟩
  unfold Stack.setX flagged
  dsimp only
  rw [hf]

/-- the first byte, read in two ways -/
theorem notStart_at8 {src : List Byte} (h : ¬IsStart src) : at8 src 0 ≠ 0x13 ∧ at8 src 0 ≠ 0x14 ∧ at8 src 0 ≠ 0x1D ∧ at8 src 0 ≠ 0x1E := by
  cases src with
  | nil => decide
  | cons b bs =>
    have e : at8 (b :: bs) 0 = b.toNat := rfl
    rw [e]
    have key : ∀ c : Byte, c ∈ ([0x13, 0x14, 0x1D, 0x1E] : List Byte) → b.toNat ≠ c.toNat := by
      intro c hc he
      exact h ⟨c, hc, by rw [List.head?_cons, UInt8.toNat_inj.1 he]⟩
    exact ⟨key 0x13 (by decide), key 0x14 (by decide), key 0x1D (by decide), key 0x1E (by decide)⟩

theorem SameF.command {s t : Stack} (h : SameF s t) (nr tp : Nat) (src : List Byte) (hs : ¬IsStart src) :
    SameR (s.command env nr tp src) (t.command env nr tp src) := by
  have hn := notStart_at8 hs
  unfold Stack.command
  split
  · exact (h.setX (f := fun x => { x with vcomp := { x.vcomp with index := b8 src 1, name := shortName src } }) fun _ _ => rfl).versionPre nr
  · obtain ⟨b, rfl⟩ := h; exact ⟨⟨b, rfl⟩, rfl⟩
  · exact (h.setX (f := fun x => { x with vcomp := { x.vcomp with name := x.vcomp.name.take 6 ++ slice src 2 2 } }) fun _ _ => rfl).versionPre nr
  · rename_i he; exact absurd he hn.1
  · rename_i he; exact absurd he hn.2.1
  · exact h.dlData _ _
  · exact h.dlBlockEnd _ _
  · exact h.dlEnd _
  · exact ⟨h.tnlX _ _, rfl⟩
  · exact ⟨h.tnlX _ _, rfl⟩
  · exact h.tnlOpen _ _
  · exact h.tnlCloseReq _ _
  · exact ⟨h.tnlReset.1, rfl⟩
  · exact ⟨h, rfl⟩
  · exact h.tnlCloseAck _ _
  · exact ⟨h, rfl⟩
  · exact ⟨h.tnlCloseDeny _ _, rfl⟩
  · exact ⟨h, rfl⟩
  · exact ⟨h, rfl⟩
  · unfold ulBlockAckn
    rw [h.x.1]
    have := h.callHnd (env := env) .ulAck s.x.comp
    exact ⟨this.1, congrArg Reply.err this.2⟩
  · obtain ⟨b, rfl⟩ := h; exact ⟨⟨false, rfl⟩, rfl⟩
  · obtain ⟨b, rfl⟩ := h; exact ⟨⟨false, rfl⟩, rfl⟩
  · exact (h.setX (f := fun x => { x with comp := { x.comp with index := b8 src 1, name := shortName src } }) fun _ _ => rfl).infoPre nr
  · rename_i he; exact absurd he hn.2.2.1
  · rename_i he; exact absurd he hn.2.2.2
  · exact ⟨h, rfl⟩

theorem SameF.asyncRx {s t : Stack} (h : SameF s t) (nr : Nat) (src : List Byte) (hs : ¬IsStart src) :
    SameR (s.asyncRx env nr src) (t.asyncRx env nr src) := by
  unfold Stack.asyncRx
  rw [h.x.2.2.2.2.2.2.2]
  split
  · exact ⟨h, rfl⟩
  · split
    · exact ⟨h, rfl⟩
    · exact h.command _ _ _ hs

/-- C134, exactly: whether a transfer is in progress matters to the four start requests only.  Any sequence of other control
messages, to any modules, has the same effect whether a transfer is in progress or not: same return codes, same frames and same
calls of the application in the same order, same buffer, counters and components. -/
theorem C134_unchecked (env : AEnv) (s : Stack) (b : Bool) (ms : List (Nat × List Byte)) (h : ∀ m ∈ ms, ¬IsStart m.2) :
    ∃ b', recvAll env (flagged b s) ms = flagged b' (recvAll env s ms) := by
  have key : ∀ (ms : List (Nat × List Byte)) (s t : Stack), (∀ m ∈ ms, ¬IsStart m.2) → SameF s t →
      SameF (recvAll env s ms) (recvAll env t ms) := by
    intro ms
    induction ms with
    | nil => intro s t _ h; exact h
    | cons m ms ih =>
      intro s t hm h
      exact ih _ _ (fun k hk => hm k (List.mem_cons_of_mem _ hk)) (h.asyncRx m.1 m.2 (hm m List.mem_cons_self)).1
  exact key ms s _ h ⟨b, rfl⟩

/-- C134: the return code does not depend on it either -/
theorem C134_return (env : AEnv) (s : Stack) (b : Bool) (nr : Nat) (m : List Byte) (h : ¬IsStart m) :
    ((flagged b s).asyncRx env nr m).2 = (s.asyncRx env nr m).2 :=
  (SameF.asyncRx (env := env) (s := s) ⟨b, rfl⟩ nr m h).2

/-! ## The component after a transfer -/

/-- handlers called with the component of the running transfer -/
def ofData (k : Hnd) : Prop := k = .dlBlock ∨ k = .dlEnd ∨ k = .ulAck

/-- what is new in the log: no call of such a handler -/
def Adds (s t : Stack) : Prop := ∃ l, logOf t = l ++ logOf s ∧ ∀ k f c, Ev.app (.hnd k f c) ∈ l → ¬ofData k

/-- what is new in the log: these handlers are called without a name -/
def Blank (s t : Stack) : Prop :=
  Nameless s.x.comp → Nameless t.x.comp ∧ ∃ l, logOf t = l ++ logOf s ∧ ∀ k f c, Ev.app (.hnd k f c) ∈ l → ofData k → Nameless c

theorem Adds.trans {s t u : Stack} (h1 : Adds s t) (h2 : Adds t u) : Adds s u := by
  obtain ⟨l, e, hl⟩ := h1
  obtain ⟨m, e', hm⟩ := h2
  refine ⟨m ++ l, by rw [e', e, List.append_assoc], fun k f c hc => ?_⟩
  rcases List.mem_append.1 hc with hc | hc
  · exact hm k f c hc
  · exact hl k f c hc

theorem Adds.of_log {s t : Stack} (h : logOf t = logOf s) : Adds s t := ⟨[], h, fun _ _ _ hm => by cases hm⟩

theorem Adds.frame {s t : Stack} (e : Ev) (h : logOf t = e :: logOf s) (he : ∀ k f c, e = .app (.hnd k f c) → ¬ofData k) : Adds s t :=
  ⟨[e], h, fun k f c hm => he k f c (List.mem_singleton.1 hm).symm⟩

theorem Adds.ctrlTx (s : Stack) (nr : Nat) (d : List Byte) : Adds s (s.ctrlTx env nr d) :=
  .frame _ rfl fun _ _ _ h => by cases h

theorem Blank.refl (s : Stack) : Blank s s := fun h => ⟨h, [], rfl, fun _ _ _ hm => by cases hm⟩

theorem Blank.trans {s t u : Stack} (h1 : Blank s t) (h2 : Blank t u) : Blank s u := by
  intro hs
  obtain ⟨ht, l, e, hl⟩ := h1 hs
  obtain ⟨hu, m, e', hm⟩ := h2 ht
  refine ⟨hu, m ++ l, by rw [e', e, List.append_assoc], fun k f c hc hk => ?_⟩
  rcases List.mem_append.1 hc with hc | hc
  · exact hm k f c hc hk
  · exact hl k f c hc hk

theorem Adds.blank {s t : Stack} (h : Adds s t) (hn : Nameless s.x.comp → Nameless t.x.comp) : Blank s t := by
  obtain ⟨l, e, hl⟩ := h
  exact fun hs => ⟨hn hs, l, e, fun k f c hc hk => absurd hk (hl k f c hc)⟩

theorem Adds.act (s : Stack) (a : Act) : Adds s (s.act env a) := by
  cases a with
  | startAckn nr m d => exact .frame _ rfl fun _ _ _ h => by cases h
  | endAckn nr => exact .frame _ rfl fun _ _ _ h => by cases h
  | termination nr e => exact .frame _ rfl fun _ _ _ h => by cases h
  | versionAnswer nr i c d => exact .frame _ rfl fun _ _ _ h => by cases h
  | infoAnswer nr i z => exact .frame _ rfl fun _ _ _ h => by cases h
  | uloadEnd nr => exact .frame _ rfl fun _ _ _ h => by cases h
  | get => exact .frame _ rfl fun _ _ _ h => by cases h
  | _ => exact .of_log rfl

theorem Adds.acts (as : List Act) : ∀ s : Stack, Adds s (as.foldl (Stack.act env) s) := by
  induction as with
  | nil => exact fun s => .of_log rfl
  | cons a as ih => exact fun s => (Adds.act s a).trans (ih _)

theorem act_nameless (s : Stack) (a : Act) (ha : ∀ f, a = .edit f → ∀ x : Component, (f x).name = x.name)
    (h : Nameless s.x.comp) : Nameless (s.act env a).x.comp := by
  cases a with
  | endAckn nr => rfl
  | termination nr e => rfl
  | edit f => exact (ha f rfl s.x.comp).trans h
  | _ => exact h

theorem acts_nameless (as : List Act) (ha : ∀ f, Act.edit f ∈ as → ∀ x : Component, (f x).name = x.name) :
    ∀ s : Stack, Nameless s.x.comp → Nameless (as.foldl (Stack.act env) s).x.comp := by
  induction as with
  | nil => exact fun s h => h
  | cons a as ih =>
    exact fun s h => ih (fun f hf => ha f (List.mem_cons_of_mem _ hf)) _
      (act_nameless s a (fun f hf => ha f (hf ▸ List.mem_cons_self)) h)

theorem Blank.callApp (hk : KeepsName env) (s : Stack) (c : ACall) (hc : ∀ k f x, c = .hnd k f x → ofData k → Nameless s.x.comp → Nameless x) :
    Blank s (s.callApp env c).1 := by
  unfold Stack.callApp
  refine Blank.trans (t := { s with callN := s.callN + 1 }.logCall c) ?_ ((Adds.acts _ _).blank (acts_nameless _ (hk _ _) _))
  intro hs
  exact ⟨hs, [.app c], rfl, fun k f x hm hd => hc k f x (by cases List.mem_singleton.1 hm; rfl) hd hs⟩

theorem Blank.callHnd (hk : KeepsName env) (s : Stack) (k : Hnd) : Blank s (s.callHnd env k s.x.comp).1 := by
  unfold Stack.callHnd
  split
  · exact .callApp hk s _ fun _ _ _ h _ hs => by cases h; exact hs
  · exact .refl s

theorem Adds.callHnd (s : Stack) (k : Hnd) (c : Component) (h : ¬ofData k) : Adds s (s.callHnd env k c).1 := by
  unfold Stack.callHnd
  split
  · exact (Adds.frame (t := { s with callN := s.callN + 1 }.logCall _) _ rfl fun _ _ _ e => by cases e; exact h).trans (Adds.acts _ _)
  · exact .of_log rfl

theorem callHnd_nameless (hk : KeepsName env) (s : Stack) (k : Hnd) (c : Component) (h : Nameless s.x.comp) :
    Nameless (s.callHnd env k c).1.x.comp := by
  unfold Stack.callHnd
  split
  · exact acts_nameless _ (hk _ _) _ h
  · exact h

theorem Blank.callPort (hk : KeepsName env) (s : Stack) (c : ACall) (hc : ∀ k f x, c ≠ .hnd k f x) : Blank s (s.callPort env c).1 :=
  .callApp hk s c fun k f x h => absurd h (hc k f x)

theorem Blank.tx (s : Stack) (nr : Nat) (d : List Byte) : Blank s (s.ctrlTx env nr d) := (Adds.ctrlTx s nr d).blank id

theorem Blank.term (s : Stack) (nr : Nat) (e : Err) : Blank s (s.termination env nr e) := (Adds.act s (.termination nr e)).blank fun _ => rfl

theorem Blank.keep {s t : Stack} (h1 : logOf t = logOf s) (h2 : t.x.comp.name = s.x.comp.name) : Blank s t :=
  (Adds.of_log h1).blank h2.trans

theorem Blank.versionPre (hk : KeepsName env) (s : Stack) (nr : Nat) : Blank s (s.versionPre env nr).1 := by
  unfold Stack.versionPre
  dsimp only
  have h0 : Blank s (if s.x.hnd .dlVersion = none then s else s.setX fun x => { x with vcomp := { x.vcomp with nr := nr } }) := by
    split
    · exact .refl s
    · exact .keep rfl rfl
  refine h0.trans ?_
  generalize (if s.x.hnd .dlVersion = none then s else s.setX fun x => { x with vcomp := { x.vcomp with nr := nr } }) = s0
  have h1 : Blank s0 (s0.callHnd env .dlVersion s0.x.vcomp).1 :=
    (Adds.callHnd s0 _ _ (by rintro (h | h | h) <;> cases h)).blank (callHnd_nameless hk s0 _ _)
  refine h1.trans ?_
  generalize s0.callHnd env .dlVersion s0.x.vcomp = r
  refine Blank.trans (t := r.1.setX fun x => { x with vcomp := { x.vcomp with name := noName } }) (.keep rfl rfl) ?_
  split
  · split
    · exact .tx _ _ _
    · exact .refl _
  · exact .term _ _ _

theorem Blank.infoShort (s : Stack) (nr : Nat) (src : List Byte) : Blank s (s.infoShort env nr src).1 := by
  unfold Stack.infoShort Stack.infoPre
  dsimp only
  generalize hs0 : (s.setX fun x => { x with comp := { x.comp with index := b8 src 1, name := shortName src } }) = s0
  have ha : Adds s s0 := .of_log (by rw [← hs0]; rfl)
  have h0 : Adds s0 (if s0.x.hnd .ulInfo = none then s0 else s0.setX fun x => { x with comp := { x.comp with nr := nr } }) := by
    split <;> exact .of_log rfl
  generalize (if s0.x.hnd .ulInfo = none then s0 else s0.setX fun x => { x with comp := { x.comp with nr := nr } }) = s1 at *
  have h1 : Adds s1 (s1.callHnd env .ulInfo s1.x.comp).1 := Adds.callHnd s1 _ _ (by rintro (h | h | h) <;> cases h)
  generalize s1.callHnd env .ulInfo s1.x.comp = r at *
  have h2 : Blank s (r.1.setX fun x => { x with comp := { x.comp with name := noName } }) :=
    (((ha.trans h0).trans h1).trans (Adds.of_log (t := r.1.setX fun x => { x with comp := { x.comp with name := noName } }) rfl)).blank
      fun _ => rfl
  refine h2.trans ?_
  split
  · split
    · exact .tx _ _ _
    · exact .refl _
  · exact .term _ _ _

theorem Blank.dlBlockEnd (hk : KeepsName env) (s : Stack) (nr : Nat) (src : List Byte) : Blank s (s.dlBlockEnd env nr src).1 := by
  unfold Stack.dlBlockEnd
  dsimp only
  split
  · have h0 : Blank s (if 0 < sub16 s.x.bytes (at8 src 1 * 256 + at8 src 2) then s.setX fun x => { x with
          buf := (x.buf.removeBytes env.bufSize (sub16 s.x.bytes (at8 src 1 * 256 + at8 src 2))).1 } else s) := by
      split
      · exact .keep rfl rfl
      · exact .refl s
    refine h0.trans ?_
    generalize (if 0 < sub16 s.x.bytes (at8 src 1 * 256 + at8 src 2) then s.setX fun x => { x with
          buf := (x.buf.removeBytes env.bufSize (sub16 s.x.bytes (at8 src 1 * 256 + at8 src 2))).1 } else s) = s0
    refine (Blank.callHnd hk s0 .dlBlock).trans ?_
    generalize s0.callHnd env .dlBlock s0.x.comp = r
    split
    · exact (Blank.tx (env := env) r.1 nr [0x1A, 0, 0, 0, 0, 0, 0, 0]).trans (.keep rfl rfl)
    · exact .term _ _ _
  · exact .term _ _ _

theorem Blank.dlEnd (hk : KeepsName env) (s : Stack) (nr : Nat) : Blank s (s.dlEnd env nr).1 := by
  unfold Stack.dlEnd
  dsimp only
  refine (Blank.callHnd hk s .dlEnd).trans ?_
  generalize s.callHnd env .dlEnd s.x.comp = r
  split
  · split
    · exact (Adds.act r.1 (.endAckn nr)).blank fun _ => rfl
    · exact .refl _
  · exact .term _ _ _

theorem Blank.dlData (s : Stack) (nr : Nat) (src : List Byte) : Blank s (s.dlData env nr src).1 := by
  unfold Stack.dlData
  dsimp only
  generalize s.x.buf.addLoop env.bufSize (slice src 1 7) = r
  split
  · exact .keep rfl rfl
  · exact Blank.trans (t := s.setX fun x => { x with buf := r.1 }) (.keep rfl rfl) (.term _ _ _)

theorem Blank.tnlOpen (hk : KeepsName env) (s : Stack) (nr : Nat) (src : List Byte) : Blank s (s.tnlOpen env nr src).1 := by
  unfold Stack.tnlOpen
  dsimp only
  split
  · refine (Blank.callPort hk s .tnlOpen (by intro _ _ _ h; cases h)).trans ?_
    generalize s.callPort env .tnlOpen = r
    split
    · split
      · exact Blank.trans (t := _) (.keep (by exact define_log ..) (by rfl)) (.tx _ _ _)
      · exact Blank.trans (t := r.1.setT fun t => { t with
          own := nr, prim := at8 src 1, sec := nr, state := .active, typ := at8 src 4, delay := at8 src 5 * 256 + at8 src 6 }) (.keep rfl rfl) (.tx _ _ _)
    · exact .tx _ _ _
  · exact .tx _ _ _

theorem Blank.command (hk : KeepsName env) (s : Stack) (nr tp : Nat) (src : List Byte) (hs : ¬IsStart src) :
    Blank s (s.command env nr tp src).1 := by
  have hn := notStart_at8 hs
  unfold Stack.command
  split
  · exact Blank.trans (t := s.setX fun x => { x with vcomp := { x.vcomp with index := b8 src 1, name := shortName src } })
      (.keep rfl rfl) (.versionPre hk _ nr)
  · exact .keep rfl rfl
  · exact Blank.trans (t := s.setX fun x => { x with vcomp := { x.vcomp with name := x.vcomp.name.take 6 ++ slice src 2 2 } })
      (.keep rfl rfl) (.versionPre hk _ nr)
  · rename_i he; exact absurd he hn.1
  · rename_i he; exact absurd he hn.2.1
  · exact .dlData _ _ _
  · exact .dlBlockEnd hk _ _ _
  · exact .dlEnd hk _ _
  · unfold tnlX; split
    · exact .callPort hk _ _ (by intro _ _ _ h; cases h)
    · exact .refl _
  · unfold tnlX; split
    · exact .callPort hk _ _ (by intro _ _ _ h; cases h)
    · exact .refl _
  · exact .tnlOpen hk _ _ _
  · unfold tnlCloseReq
    dsimp only
    refine (Blank.callPort hk s .tnlFree (by intro _ _ _ h; cases h)).trans ?_
    split
    · exact Blank.trans (t := (s.callPort env .tnlFree).1.tnlFree) (.keep rfl rfl) (.tx _ _ _)
    · exact .tx _ _ _
  · unfold tnlReset
    dsimp only
    split
    · refine (Blank.callPort hk s .tnlClear (by intro _ _ _ h; cases h)).trans ?_
      split
      · exact .callPort hk _ _ (by intro _ _ _ h; cases h)
      · exact .refl _
    · exact .refl _
  · exact .refl _
  · unfold tnlCloseAck
    dsimp only
    split
    · exact (Blank.callPort hk s .tnlFree (by intro _ _ _ h; cases h)).trans (.keep rfl rfl)
    · exact .refl _
  · exact .refl _
  · unfold tnlCloseDeny
    dsimp only
    split
    · exact .keep rfl rfl
    · exact .refl _
  · exact .refl _
  · exact .refl _
  · exact .callHnd hk _ _
  · exact .keep rfl rfl
  · exact .keep rfl rfl
  · exact .infoShort _ _ _
  · rename_i he; exact absurd he hn.2.2.1
  · rename_i he; exact absurd he hn.2.2.2
  · exact .refl _

theorem Blank.asyncRx (hk : KeepsName env) (s : Stack) (nr : Nat) (src : List Byte) (hs : ¬IsStart src) :
    Blank s (s.asyncRx env nr src).1 := by
  unfold Stack.asyncRx
  split
  · exact .refl _
  · split
    · exact .refl _
    · exact .command hk _ _ _ _ hs

/-- **C134**, the part that holds: after a termination or an end acknowledge (C45, C105: the name is erased) data that arrive without a
start request are handed to the application without a name: over any sequence of control messages other than start requests, to any
modules, the handlers for blocks, ends and block acknowledges are only called with a component whose name is eight zero bytes -
unless the application itself writes a name into it.  Missing: that they are not called at all, which is false. -/
theorem C134_partial (hk : KeepsName env) (s : Stack) (hn : Nameless s.x.comp) (ms : List (Nat × List Byte)) (h : ∀ m ∈ ms, ¬IsStart m.2) :
    ∃ l, logOf (recvAll env s ms) = l ++ logOf s ∧
      ∀ k f c, Ev.app (.hnd k f c) ∈ l → k = .dlBlock ∨ k = .dlEnd ∨ k = .ulAck → c.name = List.replicate 8 0 := by
  have key : ∀ (ms : List (Nat × List Byte)) (s : Stack), (∀ m ∈ ms, ¬IsStart m.2) → Blank s (recvAll env s ms) := by
    intro ms
    induction ms with
    | nil => intro s _; exact .refl s
    | cons m ms ih =>
      intro s hm
      exact (Blank.asyncRx hk s m.1 m.2 (hm m List.mem_cons_self)).trans (ih _ fun k hk => hm k (List.mem_cons_of_mem _ hk))
  exact (key ms s h hn).2

/-- C134: data and a block end after an end acknowledge -/
example :
    let s := recv exA 5 exS [exStart1, exStart2, [0x17, 0, 0, 0, 0, 0, 0, 0]]
    KeepsName exA ∧ Nameless s.x.comp ∧ s.x.busy = false ∧
    (∀ m ∈ [(5, dataMsg [1, 2, 3, 4, 5, 6, 7]), (5, blockEndMsg 7 1)], ¬IsStart m.2) := by
  refine ⟨?_, by decide +kernel, by decide +kernel, by decide +kernel⟩
  intro k c f hf
  exfalso
  revert hf
  show Act.edit f ∈ (match c with
    | .hnd .dlBlock _ _ => ({ acts := List.replicate 14 .get } : Reply)
    | _ => {}).acts → False
  split
  · intro h; cases List.eq_of_mem_replicate h
  · intro h; cases h

/-- C134: the messages of C134_unchecked, during a transfer and without one -/
example :
    let s := recv exA 5 exS [exStart1, exStart2]
    s.x.busy = true ∧ ∀ m ∈ [(5, dataMsg [1, 2, 3, 4, 5, 6, 7]), (9, blockEndMsg 7 1), (5, [0x17, 0, 0, 0, 0, 0, 0, 0])], ¬IsStart m.2 := by
  decide +kernel

/-- **C134** is false.  (1) No transfer was ever started: data for module 5 are stored, the block is handed to the application and
acknowledged, the end is acknowledged too.  (2) A download is terminated because the count of a block does not match, no transfer is in
progress; the master goes on all the same: the next messages are counted on top of those of the terminated block, and the block end
which counts them all is acknowledged, with the bytes of both. -/
theorem C134_counterexample :
    (let s := recv exA 5 exS [dataMsg [1, 2, 3, 4, 5, 6, 7], blockEndMsg 7 1, [0x17, 0, 0, 0, 0, 0, 0, 0]]
     exS.x.busy = false ∧ exFrames s = [ctrlFrame 5 (plainMsg 0x1A), ctrlFrame 5 (plainMsg 0x1B)] ∧
     ((exApp s).take 8).drop 1 = [1, 2, 3, 4, 5, 6, 7].map fun b => .got (some b)) ∧
    (let s := recv exA 5 exS [exStart1, exStart2, dataMsg [1, 2, 3, 4, 5, 6, 7], blockEndMsg 14 2]
     let t := recv exA 5 s [dataMsg [8, 9, 10, 11, 12, 13, 14], blockEndMsg 14 2]
     s.x.busy = false ∧ exFrames s = [ctrlFrame 5 (termMsg 0x5039)] ∧
     exFrames t = [ctrlFrame 5 (termMsg 0x5039), ctrlFrame 5 (plainMsg 0x1A)] ∧
     (exApp t).drop 2 = [1, 2, 3, 4, 5, 6, 7, 8, 9, 10, 11, 12, 13, 14].map fun b => .got (some b)) := by
  decide +kernel

end Stack
end LiCan
