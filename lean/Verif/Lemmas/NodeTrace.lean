import Verif.Lemmas.StackRest
import Verif.Lemmas.SlaveTime
/-!
# Every input acts on the module table through a few elementary steps

A property of the module table, the message objects and the send register that is kept by the elementary
steps of this file is kept by every input of the whole stack (`Stack.step_trace`).
-/
namespace LiCan
open Node

/-- only the log, the counter of send calls and the error queue changed -/
def Plain (n n' : Node) : Prop := ∃ l k q, n' = { n with log := l, sendN := k, errq := q }

theorem Plain.refl (n : Node) : Plain n n := ⟨_, _, _, rfl⟩

theorem Plain.trans {a b c : Node} (h : Plain a b) (g : Plain b c) : Plain a c := by
  obtain ⟨l, k, q, rfl⟩ := h
  obtain ⟨l', k', q', rfl⟩ := g
  exact ⟨l', k', q', rfl⟩

theorem Plain.ub {a b : Node} (h : Plain a b) : b.ub = a.ub := by obtain ⟨l, k, q, rfl⟩ := h; rfl

theorem Plain.light {a b : Node} (h : Plain a b) : Light a b := by
  obtain ⟨l, k, q, rfl⟩ := h; exact ⟨rfl, rfl, rfl, rfl, rfl, rfl, rfl, rfl⟩

/-- the commands of the master that act on the module table -/
inductive Cmd (env : Env) : Op → Prop
  | silentAwake {tp st : Nat} (h : tp < env.maxMod) (hs : st = 0 ∨ st = 1) : Cmd env (.silentAwake tp st)
  | changeModuleNr {tp nr : Nat} (h : tp < env.maxMod) : Cmd env (.changeModuleNr tp nr)
  | changeType {tp : Nat} {typ : List Byte} (h : tp < env.maxMod) : Cmd env (.changeType tp typ)

/-- One elementary step on the module table, caused by an input; `P` holds of the node and the input. -/
inductive NStep (env : Env) (P : Node → In → Prop) : Node → Node → Prop
  | plain {n n' : Node} (h : Plain n n') : NStep env P n n'
  /-- process data received for row `tp` -/
  | recv {n : Node} {now obj dlc id tp : Nat} {data : List Byte} (hi : P n (.frame now obj dlc id data))
      (hm : bit obj &&& n.hw.isrRx ≠ 0) (hs : n.slotRow obj = some tp) :
      NStep env P n (n.callRx env ((n.rows tp).rxMainSync (syncObjOfId id)) data ((n.rows tp).rx (syncObjOfId id)) dlc).1
  /-- process data sent -/
  | send {n n' : Node} (h : n.sendProcessData env = some n') : NStep env P n n'
  /-- a command of the master -/
  | cmd {n : Node} (o : Op) (h : Cmd env o) : NStep env P n (n.step env o).1
  /-- a call of the application -/
  | table {n : Node} (o : Op) (hi : P n (.table o)) : NStep env P n (n.step env o).1
  /-- `lcsa_init` -/
  | init {n : Node} {b : Nat} (hi : P n (.init b)) : NStep env P n (n.init env).1
  /-- a tunnel was opened -/
  | tunnel {n : Node} (nr : Nat) : NStep env P n (n.define env 6 ⟨idOf 0x602 nr 0, 0x07FF#16, 8, .asyncRx⟩).1

/-- elementary steps one after the other -/
inductive NTrace (env : Env) (P : Node → In → Prop) : Node → Node → Prop
  | refl (n : Node) : NTrace env P n n
  | tail {a b c : Node} (h : NTrace env P a b) (g : NStep env P b c) : NTrace env P a c

namespace NTrace

variable {env : Env} {P : Node → In → Prop}

theorem trans {a b c : Node} (h : NTrace env P a b) (g : NTrace env P b c) : NTrace env P a c := by
  induction g with
  | refl => exact h
  | tail _ g ih => exact .tail ih g

theorem one {a b : Node} (h : NStep env P a b) : NTrace env P a b := .tail (.refl a) h

theorem plain {a b : Node} (h : Plain a b) : NTrace env P a b := .one (.plain h)

theorem keeps {I : Node → Prop} (hI : ∀ {a b : Node}, NStep env P a b → I a → I b) {a b : Node}
    (h : NTrace env P a b) (ha : I a) : I b := by
  induction h with
  | refl => exact ha
  | tail _ g ih => exact hI g ih

end NTrace

namespace Node

theorem report_plain (env : Env) (n : Node) (e : Err) : Plain n (report env n e) := by
  unfold report; split
  · exact ⟨_, _, _, rfl⟩
  · exact .refl n

theorem send_plain (env : Env) (n : Node) (f : Frame) : Plain n (send env n f).1 := ⟨_, _, _, rfl⟩

theorem sendSys_plain (env : Env) (n : Node) (nr : Nat) (d : List Byte) : Plain n (sendSys env n nr d).1 := by
  unfold sendSys
  split
  · split
    · exact send_plain ..
    · exact .refl n
  · exact .refl n

end Node

namespace Slave

theorem callOpt_plain (s : Slave) (f : Option Nat) : Plain s.node (s.callOpt f).node := by
  cases f with
  | none => exact .refl _
  | some k => exact ⟨_, _, _, rfl⟩

theorem reqRx_plain (s : Slave) : Plain s.node (reqRx s).node := by
  unfold reqRx
  dsimp only
  have h1 : ∀ (l : List Nat) (s : Slave), Plain s.node (l.foldl (fun s i => s.callOpt (s.sync.reqCb i)) s).node := by
    intro l
    induction l with
    | nil => exact fun s => .refl _
    | cons i l ih => exact fun s => (callOpt_plain s _).trans (ih _)
  refine Plain.trans ?_ (h1 _ _)
  split
  · exact .refl _
  · exact callOpt_plain { s with sync := { s.sync with first := true } } _

theorem checkStep_plain (now : Nat) (r : Slave × Bool) (i : Nat) : Plain r.1.node (checkStep now r i).1.node := by
  have hm : (checkModule r.1 now i).1.node = r.1.node := by unfold checkModule; split <;> rfl
  unfold checkStep
  simp only
  generalize checkModule r.1 now i = c at hm ⊢
  rw [← hm]
  split
  · exact callOpt_plain { c.1 with sync := { c.1.sync with valid := upd c.1.sync.valid i false } } _
  · exact callOpt_plain { c.1 with sync := { c.1.sync with valid := upd c.1.sync.valid i true } } _

theorem checkImage_plain (env : Env) (s : Slave) (now : Nat) : Plain s.node (checkImage env s now).node := by
  unfold checkImage
  split
  · split
    · exact .refl _
    split
    · exact .refl _
    have hf : ∀ (l : List Nat) (r : Slave × Bool), Plain r.1.node (l.foldl (checkStep now) r).1.node := by
      intro l
      induction l with
      | nil => exact fun r => .refl _
      | cons i l ih => exact fun r => (checkStep_plain now r i).trans (ih _)
    have h := hf (List.range s.node.nrMod) (s, true)
    simp only
    generalize List.foldl (checkStep now) (s, true) (List.range s.node.nrMod) = r at h ⊢
    split
    · exact h.trans (callOpt_plain { r.1 with sync := { r.1.sync with timeValid := now } } _)
    · exact h
  · exact .refl _

theorem sendOneError_plain (env : Env) (n : Node) : Plain n (sendOneError env n).1 := by
  have h0 : ∀ q, Plain n { n with errq := q } := fun q => ⟨_, _, _, rfl⟩
  unfold sendOneError
  split
  · split
    · exact (h0 _).trans (sendSys_plain ..)
    · exact h0 _
  · exact h0 _

theorem drain_plain (env : Env) (k : Nat) : ∀ (r x : Node × Err), drain env k r = some x → Plain r.1 x.1 := by
  induction k with
  | zero =>
    intro r x h
    unfold drain at h
    split at h
    · rw [← Option.some.inj h]; exact .refl _
    · cases h
  | succ k ih =>
    intro r x h
    unfold drain at h
    split at h
    · rw [← Option.some.inj h]; exact .refl _
    · exact (sendOneError_plain env r.1).trans (ih _ _ h)

theorem forRows_plain {f : Slave → Nat → Slave × Err} (hf : ∀ s i, Plain s.node (f s i).1.node) (l : List Nat) :
    ∀ s, Plain s.node (forRows f l s).1.node := by
  induction l with
  | nil => exact fun s => .refl _
  | cons i l ih =>
    intro s
    simp only [forRows]
    split
    · exact hf s i
    · exact (hf s i).trans (ih _)

theorem statusAckn_plain (env : Env) (s : Slave) (tp : Nat) : Plain s.node (statusAckn env s tp).1.node := by
  unfold statusAckn
  split
  · exact .refl _
  split
  · exact .refl _
  · exact sendSys_plain ..

theorem versionAckn_plain (env : Env) (s : Slave) (tp : Nat) : Plain s.node (versionAckn env s tp).1.node := by
  unfold versionAckn
  split
  · exact .refl _
  split
  · exact .refl _
  · dsimp only
    split
    · exact sendSys_plain ..
    · exact (sendSys_plain ..).trans (sendSys_plain ..)

theorem statusRequest_plain (env : Env) (s : Slave) (dst : Option Nat) :
    Plain s.node (statusRequest env s dst).1.node := by
  unfold statusRequest
  have h1 : Plain s.node (if s.sys.first then s
    else { s with sys := { s.sys with first := true } }.callOpt s.sys.firstCb).node := by
    split
    · exact .refl _
    · exact callOpt_plain { s with sys := { s.sys with first := true } } _
  generalize (if s.sys.first then s
    else { s with sys := { s.sys with first := true } }.callOpt s.sys.firstCb) = s1 at h1 ⊢
  dsimp only
  have h2 : Plain s.node (if env.randAck then
      { s1 with sys := { s1.sys with rand := (rand s1.sys.rand).1 }, node := { s1.node with log := .wait (rand s1.sys.rand).2 :: s1.node.log } }
    else s1).node := by
    split
    · exact h1.trans ⟨_, _, _, rfl⟩
    · exact h1
  generalize (if env.randAck then
      { s1 with sys := { s1.sys with rand := (rand s1.sys.rand).1 }, node := { s1.node with log := .wait (rand s1.sys.rand).2 :: s1.node.log } }
    else s1) = s2 at h2 ⊢
  split
  · exact h2.trans (forRows_plain (statusAckn_plain env) _ _)
  · exact h2.trans (statusAckn_plain ..)

theorem findNr_lt {env : Env} {n : Node} {nr tp : Nat} (h : n.findNr env nr = some tp) : tp < env.maxMod :=
  List.mem_range.1 (List.mem_of_find?_eq_some h)

/-- a system message either changes nothing in the module table or is one of the three commands -/
theorem sysMsg_trace {env : Env} {P : Node → In → Prop} {s : Slave} {nr dlc : Nat} {src : List Byte} {r : Slave × Err}
    (h : sysMsg env s nr dlc src = some r) : NTrace env P s.node r.1.node := by
  have ret : ∀ {t : Slave × Err}, some t = some r → NTrace env P s.node t.1.node → NTrace env P s.node r.1.node := by
    intro t e k
    rw [← Option.some.inj e]; exact k
  have same : ∀ {e : Err}, some (s, e) = some r → NTrace env P s.node r.1.node := fun e => ret e (.refl _)
  have hsa : ∀ st, st = 0 ∨ st = 1 → NTrace env P s.node (sysSilentAwake env s src nr st).1.node := by
    intro st hst
    unfold sysSilentAwake
    split
    · split
      · next tp hf =>
        split
        · exact .one (.cmd (.silentAwake tp st) (.silentAwake (findNr_lt hf) hst))
        · exact .refl _
      · exact .refl _
    · exact .refl _
  unfold sysMsg at h
  split at h
  · exact same h
  dsimp only at h
  generalize hd : (if nr = 1 then none else s.node.findNr env nr : Option Nat) = dst at h
  have hlt : ∀ tp, dst = some tp → tp < env.maxMod := by
    intro tp e
    rw [e] at hd
    split at hd
    · cases hd
    · exact findNr_lt hd
  split at h
  · exact same h
  split at h
  · exact same h
  split at h
  · have hq := statusRequest_plain env s dst
    generalize statusRequest env s dst = q at hq h
    split at h
    · exact ret h (.plain hq)
    split at h
    · simp only [Option.map_eq_some_iff] at h
      obtain ⟨x, hx, rfl⟩ := h
      exact .plain (hq.trans (drain_plain env _ _ _ hx))
    · exact ret h (.plain hq)
  · split at h
    · exact same h
    · exact ret h (.refl _)
  · exact same h
  · split at h
    · exact ret h (.plain (forRows_plain (versionAckn_plain env) _ _))
    · exact ret h (.plain (versionAckn_plain ..))
  · split at h
    · exact ret h (.plain ⟨_, _, _, rfl⟩)
    · exact same h
  · refine ret h ?_
    unfold setCycle
    split <;> exact .refl _
  · exact same h
  · exact same h
  · split at h
    · exact same h
    · split at h
      · exact ret h (.one (.cmd (.changeModuleNr _ _) (.changeModuleNr (hlt _ rfl))))
      · exact same h
  · split at h
    · exact same h
    · exact ret h (hsa 0 (.inl rfl))
  · split at h
    · exact same h
    · exact ret h (hsa 1 (.inr rfl))
  · exact same h
  · split at h
    · exact ret h (.plain ⟨_, _, _, rfl⟩)
    · exact same h
  · split at h
    · exact same h
    · split at h
      · exact ret h (.one (.cmd (.changeType _ _) (.changeType (hlt _ rfl))))
      · exact same h
  · exact same h

theorem trigger_node (env : Env) (s : Slave) (now : Nat) : (trigger env s now).node = s.node := by
  unfold trigger
  extract_lets
  split <;> rfl

theorem processRequest_trace {env : Env} {P : Node → In → Prop} {s s' : Slave} {now dlc : Nat}
    (h : processRequest env s now dlc = some s') : NTrace env P s.node s'.node := by
  unfold processRequest at h
  dsimp only at h
  have h1 : Plain s.node (checkImage env (reqRx s) now).node := (reqRx_plain s).trans (checkImage_plain ..)
  generalize checkImage env (reqRx s) now = s1 at h1 h
  split at h
  · cases h
  · next n hn =>
    have h2 : NTrace env P s.node n := .tail (.plain h1) (.send hn)
    split at h
    · rw [← Option.some.inj h]
      exact .tail h2 (.plain (sendOneError_plain ..))
    · rw [← Option.some.inj h]; exact h2

/-- what one input of the slave does to the module table -/
theorem step_trace {env : Env} {P : Node → In → Prop} {s s' : Slave} {i : In} (hi : P s.node i) (h : s.step env i = some s') :
    NTrace env P s.node s'.node := by
  have ret : ∀ {t : Slave}, some t = some s' → NTrace env P s.node t.node → NTrace env P s.node s'.node := by
    intro t e k
    rw [← Option.some.inj e]; exact k
  have hcb : ∀ typ nr f, NTrace env P s.node (setModCb env s typ nr f).1.node := by
    intro typ nr f
    unfold setModCb; split <;> exact .refl _
  cases i with
  | frame now obj dlc id data =>
    simp only [step, handlerRx] at h
    have h1 : NTrace env P s.node (if bit obj &&& s.node.hw.isrRx ≠ 0 then
        match s.node.slotRow obj with
        | some tp => (rxData env s tp id dlc data).1
        | none => s
        else s).node := by
      split
      · next hb =>
        split
        · next tp htp =>
          unfold rxData
          dsimp only
          split
          · exact .refl _
          split
          · exact .refl _
          · exact .one (.recv hi hb htp)
        · exact .refl _
      · exact .refl _
    generalize (if bit obj &&& s.node.hw.isrRx ≠ 0 then
        match s.node.slotRow obj with
        | some tp => (rxData env s tp id dlc data).1
        | none => s
        else s) = s1 at h1 h
    have h2 : ∀ s2, (if obj = 0 then processRequest env s1 now dlc else some s1) = some s2 →
        NTrace env P s.node s2.node := by
      intro s2 e
      split at e
      · exact h1.trans (processRequest_trace e)
      · rw [← Option.some.inj e]; exact h1
    generalize (if obj = 0 then processRequest env s1 now dlc else some s1) = q at h2 h
    split at h
    · simp only [Option.bind_eq_some_iff, Option.map_eq_some_iff] at h
      obtain ⟨s2, e2, r, hr, rfl⟩ := h
      exact .tail ((h2 s2 e2).trans (sysMsg_trace hr)) (.plain (report_plain ..))
    · exact h2 _ h
  | trigger now => exact ret h (trigger_node env s now ▸ .refl _)
  | getPeriode => exact ret h (.refl _)
  | setCycle t => refine ret h ?_; unfold setCycle; split <;> exact .refl _
  | setMode m => exact ret h (.refl _)
  | setBaud b => exact ret h (.refl _)
  | table o => exact ret h (.one (.table o hi))
  | allCb f => exact ret h (.refl _)
  | validCb typ nr f => exact ret h (hcb ..)
  | invalidCb typ nr f => exact ret h (hcb ..)
  | reqCb typ nr f => exact ret h (hcb ..)
  | firstCb f => exact ret h (.refl _)
  | firstStatusCb f => exact ret h (.refl _)
  | timeCb f => refine ret h ?_; unfold setTimeCb; split <;> exact .refl _
  | resetCb f => refine ret h ?_; unfold setResetCb; split <;> exact .refl _
  | init b =>
    refine ret h ?_
    unfold init
    dsimp only
    split <;> exact .one (.init hi)

end Slave

namespace Stack

/-- the node of the stack -/
abbrev nodeOf (s : Stack) : Node := s.slv.node

theorem Quiet.plain {s s' : Stack} (h : Quiet s s') : Plain s.nodeOf s'.nodeOf := by
  obtain ⟨e, k, h, -⟩ := h.node
  exact ⟨_, _, _, h⟩

theorem port_plain (env : AEnv) (s : Stack) (c : ACall) (hc : ofSearch c = false := by rfl) :
    Plain s.nodeOf (s.callPort env c).1.nodeOf := (Quiet.callPort env s c hc).plain

/-- a command changes the module table only by opening a tunnel -/
theorem command_trace {P : Node → In → Prop} (env : AEnv) (s : Stack) (nr tp : Nat) (src : List Byte) :
    NTrace env.toEnv P s.nodeOf (s.command env nr tp src).1.nodeOf := by
  unfold Stack.command
  split
  · exact .plain (Quiet.versionShort env s nr src).plain
  · exact .plain (Quiet.versionLong1 s src).plain
  · exact .plain (Quiet.versionLong2 env s nr src).plain
  · exact .plain (Quiet.dlStart1 s src).plain
  · exact .plain (Quiet.dlStart2 env s nr tp src).plain
  · exact .plain (Quiet.dlData env s nr src).plain
  · exact .plain (Quiet.dlBlockEnd env s nr src).plain
  · exact .plain (Quiet.dlEnd env s nr).plain
  · unfold tnlX; dsimp only; split
    · exact .plain (port_plain env s _)
    · exact .refl _
  · unfold tnlX; dsimp only; split
    · exact .plain (port_plain env s _)
    · exact .refl _
  · unfold Stack.tnlOpen
    have hq := port_plain env s .tnlOpen
    generalize s.callPort env .tnlOpen = r at hq ⊢
    split
    · simp only
      split
      · split
        · exact .tail (.tail (.plain hq) (.tunnel nr)) (.plain ⟨_, _, _, rfl⟩)
        · exact .plain (hq.trans ⟨_, _, _, rfl⟩)
      · exact .plain (hq.trans ⟨_, _, _, rfl⟩)
    · exact .plain ⟨_, _, _, rfl⟩
  · unfold Stack.tnlCloseReq
    have hq := port_plain env s .tnlFree
    generalize s.callPort env .tnlFree = r at hq ⊢
    simp only
    split
    · exact .plain (hq.trans ⟨_, _, _, rfl⟩)
    · exact .plain (hq.trans ⟨_, _, _, rfl⟩)
  · unfold Stack.tnlReset
    split
    · have hq := port_plain env s .tnlClear
      generalize s.callPort env .tnlClear = r at hq ⊢
      simp only
      split
      · exact .plain (hq.trans (port_plain env _ _))
      · exact .plain hq
    · exact .refl _
  · exact .refl _
  · unfold Stack.tnlCloseAck
    split
    · exact .plain ((port_plain env s .tnlFree).trans (.refl _))
    · exact .refl _
  · exact .refl _
  · unfold Stack.tnlCloseDeny
    split <;> exact .refl _
  · exact .refl _
  · exact .refl _
  · exact .plain (Quiet.ulBlockAckn env s).plain
  · exact .plain (Quiet.ulStop s).plain
  · exact .plain (Quiet.ulStop s).plain
  · exact .plain (Quiet.infoShort env s nr src).plain
  · exact .plain (Quiet.ulStart1 s nr src).plain
  · exact .plain (Quiet.ulStart2 env s nr src).plain
  · exact .refl _

theorem ctrlRx_trace {P : Node → In → Prop} (env : AEnv) (s : Stack) (obj id : Nat) (src : List Byte) :
    NTrace env.toEnv P s.nodeOf (s.ctrlRx env obj id src).nodeOf := by
  have ha : ∀ s : Stack, ∀ nr, NTrace env.toEnv P s.nodeOf (s.asyncRx env nr src).1.nodeOf := by
    intro s nr
    unfold Stack.asyncRx
    split
    · exact .refl _
    split
    · exact .refl _
    · exact command_trace env s nr _ src
  unfold Stack.ctrlRx
  split
  · have hf : ∀ (l : List Nat) (s : Stack),
        NTrace env.toEnv P s.nodeOf (l.foldl (ctrlStep env obj (asyncNrOfId id) src) s).nodeOf := by
      intro l
      induction l with
      | nil => exact fun s => .refl _
      | cons k l ih =>
        intro s
        rw [List.foldl_cons]
        refine NTrace.trans ?_ (ih _)
        unfold Stack.ctrlStep
        split
        · exact .tail (ha s _) (.plain (Node.report_plain ..))
        · exact .refl _
    exact hf _ s
  · exact .refl _

theorem enqueue_plain (env : AEnv) (s : Stack) (nr dlc : Nat) (src : List Byte) :
    Plain s.nodeOf (s.enqueue env nr dlc src).1.nodeOf := by
  have hh : ∀ s : Stack, Plain s.nodeOf (handleQ env s).1.nodeOf := by
    intro s
    unfold handleQ
    split
    · dsimp only
      split <;> exact ⟨_, _, _, rfl⟩
    · exact .refl _
  have hk : ∀ s : Stack, Plain s.nodeOf (handlerTx env s).nodeOf := by
    intro s
    unfold handlerTx
    split
    · split
      · exact (hh s).trans (Node.report_plain ..)
      · exact .refl _
    · exact .refl _
  unfold Stack.enqueue
  split
  · exact .refl _
  split
  · exact .refl _
  · dsimp only
    refine Plain.trans ?_ (hk _)
    exact .refl _

theorem retry_plain (env : AEnv) (s : Stack) : Plain s.nodeOf (s.putcRetry env).1.nodeOf := by
  unfold Stack.putcRetry
  have h := enqueue_plain env s s.tnl.own s.tnl.tmp.length s.tnl.tmp
  generalize s.enqueue env s.tnl.own s.tnl.tmp.length s.tnl.tmp = r at h ⊢
  simp only
  split <;> exact h

theorem putc_plain (env : AEnv) (s : Stack) (x : Byte) : Plain s.nodeOf (s.putc env x).1.nodeOf := by
  unfold Stack.putc
  split
  · exact .refl _
  split
  · simp only
    split
    · exact Plain.trans (.refl _) (retry_plain env _)
    · exact .refl _
  · exact .refl _

theorem processTx_plain (env : AEnv) (s : Stack) (now : Nat) : Plain s.nodeOf (s.processTx env now).1.nodeOf := by
  unfold Stack.processTx
  split
  · exact .refl _
  split
  · split
    · have h := enqueue_plain env s s.tnl.own s.tnl.tmp.length s.tnl.tmp
      generalize s.enqueue env s.tnl.own s.tnl.tmp.length s.tnl.tmp = r at h ⊢
      simp only
      split <;> exact h
    · exact .refl _
  · exact .refl _

theorem notify_plain (s : Stack) (f : Option Nat) (c : Nat → ACall) : Plain s.nodeOf (s.notify f c).nodeOf := by
  cases f with
  | none => exact .refl _
  | some k => exact ⟨_, _, _, rfl⟩

theorem unaware_plain (env : AEnv) (s : Stack) (e : Option Err) : Plain s.nodeOf (s.reportUnaware env e).nodeOf := by
  cases e with
  | none => exact .refl _
  | some e =>
    unfold Stack.reportUnaware
    dsimp only
    split
    · exact ⟨_, _, _, rfl⟩
    · exact .refl _

theorem nextBaud_nodeT (env : AEnv) (s : Stack) (now : Nat) : (s.nextBaud env now).nodeOf = s.nodeOf := by
  have h1 : ∀ r : Stack × Err, (if r.2 = E.ok then (r.1.nodeMode env .listen).1 else r.1).nodeOf = r.1.nodeOf := by
    intro r
    split <;> rfl
  exact h1 (Stack.baudRate env (s.nodeMode env .stopped).1 (rcTab.getD (if s.rc.idx < 3 then s.rc.idx + 1 else 0) 0))

theorem rcOn_nodeT (env : AEnv) (s : Stack) (now : Nat) (first : Bool) : (s.rcOn env now first).nodeOf = s.nodeOf := by
  unfold Stack.rcOn
  cases first with
  | true => rfl
  | false =>
    simp only [Bool.false_eq_true, if_false]
    exact nextBaud_nodeT env _ now

theorem rcDone_plain (env : AEnv) (s : Stack) (b : Nat) : Plain s.nodeOf (s.rcDone env b).nodeOf := by
  unfold Stack.rcDone
  split
  · exact (unaware_plain env { s with lcsa := .init } _).trans (notify_plain ..)
  · exact (unaware_plain env { s with lcsa := .running } _).trans (notify_plain ..)
  · exact (unaware_plain env { s with lcsa := .running } _).trans (notify_plain ..)
  · exact notify_plain { s with lcsa := .init } _ _
  · exact .refl _

theorem rcOff_plain (env : AEnv) (s : Stack) (now : Nat) : Plain s.nodeOf (s.rcOff env now).nodeOf := by
  unfold Stack.rcOff
  dsimp only
  have h1 : ∀ r : Stack × Err, r.1.nodeOf = s.nodeOf →
      (if r.2 = E.ok then r.1.nodeMode env .operational else r).1.nodeOf = s.nodeOf := by
    intro r e
    split
    · exact e
    · exact e
  have h2 := h1 (Stack.baudRate env ((s.setR fun c => { c with process := false }).nodeMode env .stopped).1 s.rc.back) rfl
  generalize (if (Stack.baudRate env ((s.setR fun c => { c with process := false }).nodeMode env .stopped).1 s.rc.back).2 = E.ok then
    (Stack.baudRate env ((s.setR fun c => { c with process := false }).nodeMode env .stopped).1 s.rc.back).1.nodeMode env .operational
    else Stack.baudRate env ((s.setR fun c => { c with process := false }).nodeMode env .stopped).1 s.rc.back) = r at h2 ⊢
  rw [← h2]
  by_cases h : r.2 = E.ok
  · rw [if_pos h, if_pos h]
    exact Plain.trans (.refl _) (rcDone_plain env (Stack.setR { r.1 with lcsa := .running }
      fun c => { c with state := .off, nr := u16 (c.nr + 1) }) s.rc.back)
  · rw [if_neg h, if_neg h]
    exact .refl _

theorem rcStartup_plain (env : AEnv) (s : Stack) (now : Nat) : Plain s.nodeOf (s.rcStartup env now).nodeOf := by
  unfold Stack.rcStartup
  split
  · dsimp only
    rw [rcOn_nodeT]
    exact notify_plain ..
  · exact .refl _

theorem rcError_plain (env : AEnv) (s : Stack) (now : Nat) (c : RCause) : Plain s.nodeOf (s.rcError env now c).nodeOf := by
  unfold Stack.rcError
  split
  · dsimp only
    rw [rcOn_nodeT]
    exact notify_plain ..
  · exact .refl _

theorem rcSwitch_nodeT (env : AEnv) (s : Stack) (now : Nat) : (s.rcSwitch env now).nodeOf = s.nodeOf := by
  unfold Stack.rcSwitch
  split
  · exact nextBaud_nodeT env s now
  · rfl

theorem rcProcess_plain (env : AEnv) (s : Stack) (now : Nat) (p : Pending) (l : Lec) :
    Plain s.nodeOf (s.rcProcess env now p l).nodeOf := by
  have off : ∀ s1 : Stack, s1.nodeOf = s.nodeOf → Plain s.nodeOf (s1.rcOff env now).nodeOf := by
    intro s1 e; rw [← e]; exact rcOff_plain env s1 now
  have eqp : ∀ s1 : Stack, s1.nodeOf = s.nodeOf → Plain s.nodeOf s1.nodeOf := by
    intro s1 e; rw [e]; exact .refl _
  unfold Stack.rcProcess
  split
  · exact .refl _
  split
  · split
    · exact off _ rfl
    split
    · exact off _ rfl
    split
    · exact eqp _ (rcOn_nodeT env _ now false)
    split
    · exact eqp _ (nextBaud_nodeT env s now)
    · exact .refl _
  · split
    · exact off _ rfl
    split
    · exact eqp _ (rcSwitch_nodeT env s now)
    split
    · exact off _ rfl
    · dsimp only
      split
      · exact off _ rfl
      · exact .refl _
    · split
      · exact off _ rfl
      · exact .refl _
    · exact eqp _ (rcSwitch_nodeT env _ now)
  · dsimp only
    split <;> exact .refl _
  · exact .refl _

theorem hwBusOff_plain (env : AEnv) (s : Stack) (now : Nat) (b : BusState) (l : Lec) :
    Plain s.nodeOf (s.hwBusOff env now b l).nodeOf := by
  have h : ∀ s1 : Stack, s1.nodeOf = s.nodeOf → Plain s.nodeOf (s1.rcError env now .boff).nodeOf := by
    intro s1 e; rw [← e]; exact rcError_plain ..
  unfold Stack.hwBusOff
  split
  · exact h _ rfl
  · exact .refl _

theorem hwPassive_plain (env : AEnv) (s : Stack) (now : Nat) (b : BusState) :
    Plain s.nodeOf (s.hwPassive env now b).nodeOf := by
  have h : ∀ s1 : Stack, s1.nodeOf = s.nodeOf → Plain s.nodeOf (s1.rcError env now .ewrn).nodeOf := by
    intro s1 e; rw [← e]; exact rcError_plain ..
  unfold Stack.hwPassive
  split
  · exact h _ rfl
  · exact .refl _

theorem hwError_plain (env : AEnv) (s : Stack) (now : Nat) (b : BusState) (l : Lec) :
    Plain s.nodeOf (s.hwError env now b l).nodeOf := by
  unfold Stack.hwError
  dsimp only
  have h3 : Plain s.nodeOf (if (b ≠ .active ∨ l ≠ .none) ∧ s.rc.state = .off then (s.hwBusOff env now b l).hwPassive env now b else s).nodeOf := by
    split
    · exact (hwBusOff_plain ..).trans (hwPassive_plain ..)
    · exact .refl _
  generalize (if (b ≠ .active ∨ l ≠ .none) ∧ s.rc.state = .off then (s.hwBusOff env now b l).hwPassive env now b else s) = s1 at h3 ⊢
  split
  · exact h3.trans (rcProcess_plain ..)
  · exact h3

theorem start_plain (env : AEnv) (s : Stack) (now : Nat) : Plain s.nodeOf (s.start env now).1.nodeOf := by
  have ha : ∀ s : Stack, Plain s.nodeOf (s.startAck env).nodeOf := by
    intro s
    unfold Stack.startAck
    split
    · exact ((Quiet.refl s).endA env _).plain.trans (.refl _)
    · exact .refl _
  have fin : ∀ r : Stack × Err, Plain s.nodeOf r.1.nodeOf →
      Plain s.nodeOf (if r.2 = E.ok then (({ r.1.startAck env with lcsa := .running }, E.ok) : Stack × Err) else r).1.nodeOf := by
    intro r h
    split
    · exact h.trans (ha _)
    · exact h
  unfold Stack.start
  refine fin _ ?_
  split
  · dsimp only
    split <;> exact .refl _
  · exact Plain.trans (.refl _) (rcStartup_plain env _ now)

/-- the input of the slave behind an input of the stack at node `n0`, and where it arrives -/
def Behind (n0 : Node) : SIn → Node → In → Prop
  | .rx now obj dlc id _ data, n, j => n = n0 ∧ j = .frame now obj dlc id data
  | .api i, n, j => n = n0 ∧ j = i ∧ isApi i = true
  | .init _, _, j => ∃ b, j = .init b
  | _, _, _ => False

theorem init_trace {P : Node → In → Prop} (env : AEnv) (s : Stack) (b : Nat) (hP : ∀ n b, P n (.init b)) :
    NTrace env.toEnv P s.nodeOf (s.init env b).1.nodeOf := by
  have key : ∀ (s1 : Stack) (b : Nat), Plain s.nodeOf s1.nodeOf →
      NTrace env.toEnv P s.nodeOf (s1.setSlv env (s1.slv.init env.toEnv b).1).nodeOf := by
    intro s1 b h
    exact NTrace.trans (.plain h) (Slave.step_trace (s := s1.slv) (i := .init b) (hP _ b) rfl)
  unfold Stack.init
  refine key _ _ ?_
  have h3 : ∀ s1 : Stack, Plain s.nodeOf s1.nodeOf → ∀ p : Prop, ∀ [Decidable p],
      Plain s.nodeOf (if p then { s1 with lcsa := .download } else s1).nodeOf := by
    intro s1 h p _
    split
    · exact h
    · exact h
  refine h3 _ ?_ _
  split
  · exact ⟨_, _, _, rfl⟩
  · exact .refl _

/-- what one input of the stack does to the module table -/
theorem step_trace {env : AEnv} {s s' : Stack} {i : SIn} (h : s.step env i = some s') :
    NTrace env.toEnv (Behind s.nodeOf i) s.nodeOf s'.nodeOf := by
  have ret : ∀ {t : Stack} {P : Node → In → Prop}, some t = some s' → NTrace env.toEnv P s.nodeOf t.nodeOf →
      NTrace env.toEnv P s.nodeOf s'.nodeOf := by
    intro t P e k
    rw [← Option.some.inj e]; exact k
  cases i with
  | rx now obj dlc id ext data =>
    simp only [Stack.step, Stack.rx] at h
    split at h
    · exact ret h (.refl _)
    split at h
    · exact ret h (.refl _)
    simp only [Option.map_eq_some_iff] at h
    obtain ⟨v, hv, rfl⟩ := h
    have h0 : NTrace env.toEnv (Behind s.nodeOf (.rx now obj dlc id ext data)) s.nodeOf
        (Stack.setSlv env (s.setR fun c => { c with pending := .msg }) v).nodeOf :=
      Slave.step_trace (i := .frame now obj dlc id data) ⟨rfl, rfl⟩ hv
    refine (h0.trans (.plain (processTx_plain env _ now))).trans ?_
    refine (ctrlRx_trace env _ obj id data).trans ?_
    unfold Stack.dataRx
    split
    · exact .plain (port_plain env _ _)
    · exact .refl _
  | process now bus lec =>
    refine ret h ?_
    unfold Stack.process
    refine .plain ((Plain.trans ?_ (hwError_plain env { s with slv := s.slv.trigger env.toEnv now } now bus lec)).trans
      (processTx_plain ..))
    show Plain s.slv.node (s.slv.trigger env.toEnv now).node
    rw [Slave.trigger_node]; exact .refl _
  | init b => exact ret h (init_trace env s b fun _ b => ⟨b, rfl⟩)
  | start now => exact ret h (.plain (start_plain env s now))
  | setState l => exact ret h (.refl _)
  | setBaud b => exact ret h (.refl _)
  | api i =>
    simp only [Stack.step] at h
    split at h
    · next hi =>
      simp only [Option.map_eq_some_iff] at h
      obtain ⟨v, hv, rfl⟩ := h
      exact Slave.step_trace (i := i) ⟨rfl, rfl, hi⟩ hv
    · exact ret h (.refl _)
  | hnd k f => exact ret h (by unfold Stack.setHnd; split <;> exact .refl _)
  | dlStart c => exact ret h (.plain (Quiet.dlStart env s c).plain)
  | act a => exact ret h (.plain (Quiet.act env s a).plain)
  | ulData fuel data => exact .plain (Quiet.ulData env fuel s s' data h).plain
  | putc x => exact ret h (.plain (putc_plain env s x))
  | retry =>
    refine ret h ?_
    split
    · exact .refl _
    · exact .plain (retry_plain env s)
  | xonOff code =>
    refine ret h ?_
    unfold Stack.xonOff
    split
    · exact .refl _
    · exact .plain (Quiet.ctrlTx env s _ _).plain
  | shutdown =>
    refine ret h ?_
    unfold Stack.tnlShutdown
    split
    · exact .refl _
    · exact .plain ⟨_, _, _, rfl⟩
  | enqueue nr dlc src => exact ret h (.plain (enqueue_plain env s nr dlc src))
  | info o => exact ret h (.refl _)
  | rcCb k f => exact ret h (by unfold Stack.setRcCb; cases k <;> (dsimp only; split <;> exact .refl _))

end Stack
end LiCan
