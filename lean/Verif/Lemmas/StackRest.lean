import Verif.Lemmas.StackBase
import Verif.Lemmas.SlaveSync
import Verif.Lemmas.SlaveEff
import Verif.Spec.Session
/-! # What leaves the registrations, the transmit queue and the tunnel buffer alone -/
namespace LiCan
namespace XInfo

/-- the stored checksum is that of the data -/
def Ok (crc : InfoData → Nat) (i : XInfo) : Prop := i.crc = u16 (crc i.d)

theorem Ok.update (crc : InfoData → Nat) (i : XInfo) : Ok crc (i.updateCrc crc) := rfl

theorem Ok.init (crc : InfoData → Nat) (i : XInfo) : Ok crc (i.init crc).1 := by
  unfold XInfo.init
  split
  · next h => simp only [checkCrc, decide_eq_true_eq] at h; exact h.symm
  · exact .update _ _

theorem Ok.step {crc : InfoData → Nat} {i : XInfo} (h : Ok crc i) (o : Op) : Ok crc (i.step crc o) := by
  cases o with
  | init => exact .init crc i
  | _ => exact .update _ _

end XInfo
namespace Slave

theorem checkStep_sl (now : Nat) (r : Slave × Bool) (i : Nat) :
    (checkStep now r i).1.sys = r.1.sys ∧ (checkStep now r i).1.link = r.1.link := by
  have hm : (checkModule r.1 now i).1.sys = r.1.sys ∧ (checkModule r.1 now i).1.link = r.1.link := by
    unfold checkModule; split <;> exact ⟨rfl, rfl⟩
  unfold checkStep
  simp only
  split
  · dsimp only; rw [callOpt_sys, callOpt_link]; exact hm
  · dsimp only; rw [callOpt_sys, callOpt_link]; exact hm

theorem checkFold_sl (now : Nat) (is : List Nat) : ∀ r : Slave × Bool,
    (is.foldl (checkStep now) r).1.sys = r.1.sys ∧ (is.foldl (checkStep now) r).1.link = r.1.link := by
  induction is with
  | nil => exact fun r => ⟨rfl, rfl⟩
  | cons i is ih =>
    intro r
    obtain ⟨a, b⟩ := ih (checkStep now r i)
    obtain ⟨c, d⟩ := checkStep_sl now r i
    exact ⟨a.trans c, b.trans d⟩

theorem checkImage_sl (env : Env) (s : Slave) (now : Nat) :
    (checkImage env s now).sys = s.sys ∧ (checkImage env s now).link = s.link := by
  unfold checkImage
  split
  · split
    · exact ⟨rfl, rfl⟩
    split
    · exact ⟨rfl, rfl⟩
    have h := checkFold_sl now (List.range s.node.nrMod) (s, true)
    simp only
    generalize List.foldl (checkStep now) (s, true) (List.range s.node.nrMod) = r at h ⊢
    split
    · refine ⟨?_, ?_⟩
      · show (callOpt _ _).sys = _
        rw [callOpt_sys]; exact h.1
      · show (callOpt _ _).link = _
        rw [callOpt_link]; exact h.2
    · exact h
  · exact ⟨rfl, rfl⟩

theorem request_sl {env : Env} {s s' : Slave} {now dlc : Nat} (h : processRequest env s now dlc = some s') :
    s'.sys = s.sys ∧ s'.link = s.link := by
  obtain ⟨-, h1, h2, -, -⟩ := processRequest_spec h
  obtain ⟨a, b⟩ := checkImage_sl env (reqRx s) now
  have e := reqRx_eq s
  refine ⟨(h2.trans a).trans ?_, (h1.trans b).trans ?_⟩
  · rw [e]
  · rw [e]

/-- the callbacks that can be set only once -/
def Once (s s' : Slave) : Prop := s'.sys.timeCb = s.sys.timeCb ∧ s'.sys.resetCb = s.sys.resetCb

theorem Once.refl (s : Slave) : Once s s := ⟨rfl, rfl⟩
theorem Once.trans {a b c : Slave} (h : Once a b) (g : Once b c) : Once a c := ⟨g.1.trans h.1, g.2.trans h.2⟩
theorem Once.of_sys {s s' : Slave} (h : s'.sys = s.sys) : Once s s' := by unfold Once; rw [h]; exact ⟨rfl, rfl⟩

theorem SysEff.once {env : Env} {s s' : Slave} {src : List Byte} (h : SysEff env s src s') : Once s s' := by
  cases h with
  | cycle h => unfold setCycle; split <;> exact ⟨rfl, rfl⟩
  | _ => exact ⟨rfl, rfl⟩

theorem handlerRx_once {env : Env} {s s' : Slave} {now obj dlc id : Nat} {data : List Byte}
    (h : handlerRx env s now obj dlc id data = some s') : Once s s' := by
  rw [handlerRx_eq] at h
  have hd : Once s (dataPart env s obj dlc id data) := .of_sys (dataPart_keeps env s obj dlc id data).2.2.1
  generalize dataPart env s obj dlc id data = s1 at *
  have hr : ∀ s2, reqPart env s1 now obj dlc = some s2 → Once s s2 := by
    intro s2 h2
    unfold reqPart at h2
    split at h2
    · exact hd.trans (.of_sys (request_sl h2).1)
    · injection h2 with h2; rw [← h2]; exact hd
  split at h
  · simp only [Option.bind_eq_some_iff] at h
    obtain ⟨s2, h2, h3⟩ := h
    simp only [sysPart, Option.map_eq_some_iff] at h3
    obtain ⟨⟨r, e⟩, h4, h5⟩ := h3
    subst h5
    exact ((hr s2 h2).trans (sysMsg_eff h4).once).trans (.of_sys rfl)
  · exact hr s' h

theorem init_once (env : Env) (s : Slave) (baud : Nat) : Once s (Slave.init env s baud).1 := by
  unfold Slave.init; simp only; split <;> exact ⟨rfl, rfl⟩

theorem trigger_once (env : Env) (s : Slave) (now : Nat) : Once s (trigger env s now) := by
  obtain ⟨p, hp⟩ := trigger_eq env s now
  rw [hp]; exact ⟨rfl, rfl⟩

theorem setModCb_once (env : Env) (s : Slave) (typ : List Byte) (nr : Nat) (f : SyncVars → Nat → SyncVars) :
    Once s (setModCb env s typ nr f).1 := by
  rcases setModCb_keeps env s typ nr f with e | ⟨tp, e⟩ <;> rw [e] <;> exact ⟨rfl, rfl⟩

end Slave
namespace Stack
open Spec

variable {env : AEnv}

/-- the registrations of the application are the same and the transfer info is still consistent -/
structure Fix (env : AEnv) (s s' : Stack) : Prop where
  okInfo : XInfo.Ok env.crc s.info → XInfo.Ok env.crc s'.info
  hnd : s'.x.hnd = s.x.hnd
  sys : Slave.Once s.slv s'.slv
  onStart : s'.rc.onStart = s.rc.onStart
  onStop : s'.rc.onStop = s.rc.onStop
  suStart : s'.rc.suStart = s.rc.suStart
  suStop : s'.rc.suStop = s.rc.suStop

theorem Fix.refl (s : Stack) : Fix env s s := ⟨id, rfl, .refl _, rfl, rfl, rfl, rfl⟩
theorem Fix.trans {a b c : Stack} (h : Fix env a b) (g : Fix env b c) : Fix env a c :=
  ⟨fun k => g.okInfo (h.okInfo k), g.hnd.trans h.hnd, h.sys.trans g.sys, g.onStart.trans h.onStart, g.onStop.trans h.onStop,
   g.suStart.trans h.suStart, g.suStop.trans h.suStop⟩

/-- ... and so are the transmit queue and the tunnel buffer -/
structure Rest (env : AEnv) (s s' : Stack) : Prop extends Fix env s s' where
  q : s'.q = s.q
  tmp : s'.tnl.tmp = s.tnl.tmp
  lock : s'.tnl.lock = s.tnl.lock
  sess : sessionOf s' = sessionOf s

theorem Rest.refl (s : Stack) : Rest env s s := ⟨.refl s, rfl, rfl, rfl, rfl⟩
theorem Rest.trans {a b c : Stack} (h : Rest env a b) (g : Rest env b c) : Rest env a c :=
  ⟨h.toFix.trans g.toFix, g.q.trans h.q, g.tmp.trans h.tmp, g.lock.trans h.lock, g.sess.trans h.sess⟩

/-- ... while the session may have changed -/
structure RestT (env : AEnv) (s s' : Stack) : Prop extends Fix env s s' where
  q : s'.q = s.q
  tmp : s'.tnl.tmp = s.tnl.tmp
  lock : s'.tnl.lock = s.tnl.lock
  path : SessPath (sessionOf s) (sessionOf s')

theorem Rest.t {s s' : Stack} (h : Rest env s s') : RestT env s s' := ⟨h.toFix, h.q, h.tmp, h.lock, .of_eq h.sess⟩
theorem RestT.refl (s : Stack) : RestT env s s := (Rest.refl s).t
theorem RestT.trans {a b c : Stack} (h : RestT env a b) (g : RestT env b c) : RestT env a c :=
  ⟨h.toFix.trans g.toFix, g.q.trans h.q, g.tmp.trans h.tmp, g.lock.trans h.lock, h.path.trans g.path⟩

theorem Quiet.rest {s s' : Stack} (h : Quiet s s') : Rest env s s' :=
  ⟨⟨by rw [h.info]; exact id, h.hnd, .of_sys (by rw [h.slv]), by rw [h.rc], by rw [h.rc], by rw [h.rc], by rw [h.rc]⟩, h.q, by rw [h.tnl], by rw [h.tnl], by unfold sessionOf; rw [h.tnl]⟩

theorem Rest.slv (s : Stack) (v : Slave) (h : Slave.Once s.slv v) : Rest env s { s with slv := v } :=
  ⟨⟨id, rfl, h, rfl, rfl, rfl, rfl⟩, rfl, rfl, rfl, rfl⟩

theorem Rest.setSlv (env : AEnv) (s : Stack) (v : Slave) (h : Slave.Once s.slv v) : Rest env s (s.setSlv env v) := by
  refine ⟨⟨?_, rfl, h, rfl, rfl, rfl, rfl⟩, rfl, rfl, rfl, rfl⟩
  intro k
  unfold Stack.setSlv
  dsimp only
  split
  · exact k
  · exact XInfo.Ok.update _ _

theorem Rest.node (s : Stack) (n : Node) : Rest env s (s.setNode n) := ⟨⟨id, rfl, ⟨rfl, rfl⟩, rfl, rfl, rfl, rfl⟩, rfl, rfl, rfl, rfl⟩

theorem RestT.setT (s : Stack) (f : Tunnel → Tunnel) (h1 : (f s.tnl).tmp = s.tnl.tmp) (h2 : (f s.tnl).lock = s.tnl.lock)
    (h3 : SessPath (sessionOf s) (sessionOf (s.setT f))) :
    RestT env s (s.setT f) := ⟨⟨id, rfl, ⟨rfl, rfl⟩, rfl, rfl, rfl, rfl⟩, rfl, h1, h2, h3⟩

theorem Rest.port (env : AEnv) (s : Stack) (c : ACall) (hc : ofSearch c = false := by rfl) : Rest env s (s.callPort env c).1 :=
  (Quiet.callPort env s c hc).rest

theorem Rest.tx (env : AEnv) (s : Stack) (nr : Nat) (d : List Byte) : Rest env s (s.ctrlTx env nr d) := (Quiet.ctrlTx env s nr d).rest

theorem RestT.tnlFree (s : Stack) : RestT env s s.tnlFree := by
  unfold Stack.tnlFree
  exact .setT s _ rfl rfl (.one (.closed (sessionOf s)))

theorem RestT.tnlOpen (env : AEnv) (s : Stack) (nr : Nat) (src : List Byte) : RestT env s (s.tnlOpen env nr src).1 := by
  unfold Stack.tnlOpen
  split
  · next hf =>
    have h := Rest.port env s .tnlOpen
    generalize s.callPort env .tnlOpen = r at h ⊢
    simp only
    split
    · have h2 := h.t.trans (RestT.setT r.1 (fun t => { t with
        own := nr, prim := Slave.at8 src 1, sec := nr, state := .active, typ := Slave.at8 src 4
        delay := Slave.at8 src 5 * 256 + Slave.at8 src 6 }) rfl rfl
        (.one (.opened (a := sessionOf r.1) (by rw [h.sess]; exact hf) nr (Slave.at8 src 1) (Slave.at8 src 4)
          (Slave.at8 src 5 * 256 + Slave.at8 src 6))))
      generalize r.1.setT _ = s1 at h2 ⊢
      split
      · exact (h2.trans (Rest.node _ _).t).trans (Rest.tx env _ _ _).t
      · exact h2.trans (Rest.tx env _ _ _).t
    · exact (h.trans (.tx env _ _ _)).t
  · exact (Rest.tx env _ _ _).t

theorem RestT.tnlCloseReq (env : AEnv) (s : Stack) (nr : Nat) (src : List Byte) : RestT env s (s.tnlCloseReq env nr src).1 := by
  unfold Stack.tnlCloseReq
  have h := Rest.port env s .tnlFree
  generalize s.callPort env .tnlFree = r at h ⊢
  simp only
  split
  · exact (h.t.trans (.tnlFree _)).trans (Rest.tx env _ _ _).t
  · exact (h.trans (.tx env _ _ _)).t

theorem Rest.tnlReset (env : AEnv) (s : Stack) : Rest env s (s.tnlReset env).1 := by
  unfold Stack.tnlReset
  split
  · have h := Rest.port env s .tnlClear
    generalize s.callPort env .tnlClear = r at h ⊢
    simp only
    split
    · exact h.trans (.port env _ _)
    · exact h
  · exact .refl s

theorem RestT.tnlCloseAck (env : AEnv) (s : Stack) (nr : Nat) (src : List Byte) : RestT env s (s.tnlCloseAck env nr src).1 := by
  unfold Stack.tnlCloseAck
  split
  · exact (Rest.port env s .tnlFree).t.trans (.tnlFree _)
  · exact .refl s

theorem RestT.tnlCloseDeny (s : Stack) (nr : Nat) (src : List Byte) : RestT env s (s.tnlCloseDeny nr src) := by
  unfold Stack.tnlCloseDeny
  split
  · next h => exact .setT s _ rfl rfl (.one (.resumed (a := sessionOf s) h.1))
  · exact .refl s

theorem Rest.tnlX (env : AEnv) (s : Stack) (src : List Byte) (c : ACall) (hc : ofSearch c = false := by rfl) : Rest env s (s.tnlX env src c) := by
  unfold Stack.tnlX
  split
  · exact .port env s c hc
  · exact .refl s

theorem Quiet.versionShort (env : AEnv) (s : Stack) (nr : Nat) (src : List Byte) : Quiet s (s.versionShort env nr src).1 := by
  unfold Stack.versionShort
  refine Quiet.trans (.setX s _ ?_) (.versionPre env _ nr); exact fun _ => rfl

theorem Quiet.versionLong2 (env : AEnv) (s : Stack) (nr : Nat) (src : List Byte) : Quiet s (s.versionLong2 env nr src).1 := by
  unfold Stack.versionLong2
  refine Quiet.trans (.setX s _ ?_) (.versionPre env _ nr); exact fun _ => rfl

theorem Quiet.infoShort (env : AEnv) (s : Stack) (nr : Nat) (src : List Byte) : Quiet s (s.infoShort env nr src).1 := by
  unfold Stack.infoShort
  refine Quiet.trans (.setX s _ ?_) (.infoPre env _ nr); exact fun _ => rfl

theorem Quiet.versionLong1 (s : Stack) (src : List Byte) : Quiet s (s.versionLong1 src) := by
  unfold Stack.versionLong1
  refine .setX s _ ?_; exact fun _ => rfl

theorem Quiet.ulStart1 (s : Stack) (nr : Nat) (src : List Byte) : Quiet s (s.ulStart1 nr src) := by
  unfold Stack.ulStart1
  refine .setX s _ ?_; exact fun _ => rfl

theorem Quiet.ulStop (s : Stack) : Quiet s s.ulStop := by
  unfold Stack.ulStop
  refine .setX s _ ?_; exact fun _ => rfl

theorem Quiet.ulBlockAckn (env : AEnv) (s : Stack) : Quiet s (s.ulBlockAckn env).1 := by
  unfold Stack.ulBlockAckn
  exact .callHnd env s _ _

theorem RestT.command (env : AEnv) (s : Stack) (nr tp : Nat) (src : List Byte) : RestT env s (s.command env nr tp src).1 := by
  unfold Stack.command
  split
  · exact (Quiet.versionShort env s nr src).rest.t
  · exact (Quiet.versionLong1 s src).rest.t
  · exact (Quiet.versionLong2 env s nr src).rest.t
  · exact (Quiet.dlStart1 s src).rest.t
  · exact (Quiet.dlStart2 env s nr tp src).rest.t
  · exact (Quiet.dlData env s nr src).rest.t
  · exact (Quiet.dlBlockEnd env s nr src).rest.t
  · exact (Quiet.dlEnd env s nr).rest.t
  · exact (Rest.tnlX env s src _).t
  · exact (Rest.tnlX env s src _).t
  · exact .tnlOpen env s nr src
  · exact .tnlCloseReq env s nr src
  · exact (Rest.tnlReset env s).t
  · exact .refl s
  · exact .tnlCloseAck env s nr src
  · exact .refl s
  · exact .tnlCloseDeny s nr src
  · exact .refl s
  · exact .refl s
  · exact (Quiet.ulBlockAckn env s).rest.t
  · exact (Quiet.ulStop s).rest.t
  · exact (Quiet.ulStop s).rest.t
  · exact (Quiet.infoShort env s nr src).rest.t
  · exact (Quiet.ulStart1 s nr src).rest.t
  · exact (Quiet.ulStart2 env s nr src).rest.t
  · exact .refl s

theorem RestT.asyncRx (env : AEnv) (s : Stack) (nr : Nat) (src : List Byte) : RestT env s (s.asyncRx env nr src).1 := by
  unfold Stack.asyncRx
  split
  · exact .refl s
  · split
    · exact .refl s
    · exact .command env s nr _ src

theorem RestT.ctrlStep (env : AEnv) (obj nr : Nat) (src : List Byte) (s : Stack) (k : Nat) :
    RestT env s (ctrlStep env obj nr src s k) := by
  unfold Stack.ctrlStep
  split
  · exact (RestT.asyncRx env s nr src).trans (Rest.node _ _).t
  · exact .refl s

theorem RestT.foldl {α : Type} (f : Stack → α → Stack) (hf : ∀ s a, RestT env s (f s a)) (l : List α) :
    ∀ s, RestT env s (l.foldl f s) := by
  induction l with
  | nil => exact fun s => .refl s
  | cons a l ih => exact fun s => (hf s a).trans (ih _)

theorem RestT.ctrlRx (env : AEnv) (s : Stack) (obj id : Nat) (src : List Byte) : RestT env s (s.ctrlRx env obj id src) := by
  unfold Stack.ctrlRx
  split
  · exact RestT.foldl _ (RestT.ctrlStep env obj (asyncNrOfId id) src) _ s
  · exact .refl s

theorem Rest.dataRx (env : AEnv) (s : Stack) (obj dlc : Nat) (src : List Byte) : Rest env s (s.dataRx env obj dlc src) := by
  unfold Stack.dataRx
  split
  · exact .port env s _
  · exact .refl s

/-! ## Baud rate search -/

/-- a change of the search that keeps its callbacks -/
theorem Rest.setR (s : Stack) (f : Recon → Recon)
    (h : ∀ c, (f c).onStart = c.onStart ∧ (f c).onStop = c.onStop ∧ (f c).suStart = c.suStart ∧ (f c).suStop = c.suStop) :
    Rest env s (s.setR f) :=
  ⟨⟨id, rfl, .refl _, (h _).1, (h _).2.1, (h _).2.2.1, (h _).2.2.2⟩, rfl, rfl, rfl, rfl⟩

theorem Rest.nodeMode (env : AEnv) (s : Stack) (m : Mode) : Rest env s (s.nodeMode env m).1 := .slv s _ ⟨rfl, rfl⟩
theorem Rest.baudRate (env : AEnv) (s : Stack) (b : Nat) : Rest env s (s.baudRate env b).1 := .setSlv env s _ ⟨rfl, rfl⟩
theorem Rest.lcsa (s : Stack) (l : LState) : Rest env s { s with lcsa := l } :=
  ⟨⟨id, rfl, .refl _, rfl, rfl, rfl, rfl⟩, rfl, rfl, rfl, rfl⟩
theorem Rest.info (s : Stack) (i : XInfo) (h : XInfo.Ok env.crc s.info → XInfo.Ok env.crc i) : Rest env s { s with info := i } :=
  ⟨⟨h, rfl, .refl _, rfl, rfl, rfl, rfl⟩, rfl, rfl, rfl, rfl⟩

theorem Rest.notify (s : Stack) (f : Option Nat) (c : Nat → ACall) : Rest env s (s.notify f c) := by
  cases f with
  | none => exact .refl s
  | some k => exact ⟨⟨id, rfl, ⟨rfl, rfl⟩, rfl, rfl, rfl, rfl⟩, rfl, rfl, rfl, rfl⟩

theorem Rest.nextBaud (env : AEnv) (s : Stack) (now : Nat) : Rest env s (s.nextBaud env now) := by
  unfold Stack.nextBaud
  simp only
  generalize (if s.rc.idx < 3 then s.rc.idx + 1 else 0) = i
  have h1 := Rest.nodeMode env s .stopped
  generalize (s.nodeMode env .stopped).1 = s1 at h1 ⊢
  have h2 := h1.trans (Rest.baudRate env s1 (rcTab.getD i 0))
  generalize s1.baudRate env (rcTab.getD i 0) = r at h2 ⊢
  refine Rest.trans ?_ (.setR _ _ fun c => ⟨rfl, rfl, rfl, rfl⟩)
  split
  · exact h2.trans (.nodeMode env _ _)
  · exact h2

theorem Rest.rcOn (env : AEnv) (s : Stack) (now : Nat) (first : Bool) : Rest env s (s.rcOn env now first) := by
  unfold Stack.rcOn
  simp only
  refine Rest.trans ?_ (.setR _ _ fun c => ⟨rfl, rfl, rfl, rfl⟩)
  have h1 := (Rest.lcsa (env := env) s .reconnect).trans
    (Rest.setR { s with lcsa := .reconnect } (fun c => { c with bit0 := 0 }) fun c => ⟨rfl, rfl, rfl, rfl⟩)
  generalize Stack.setR { s with lcsa := .reconnect } _ = s1 at h1 ⊢
  split
  · exact h1.trans (.setR _ _ fun c => ⟨rfl, rfl, rfl, rfl⟩)
  · exact h1.trans (.nextBaud env _ _)

theorem Rest.reportUnaware (env : AEnv) (s : Stack) (e : Option Err) : Rest env s (s.reportUnaware env e) := by
  unfold Stack.reportUnaware
  split
  · exact .refl s
  · split
    · exact .node _ _
    · exact .refl s

theorem Rest.rcDone (env : AEnv) (s : Stack) (baud : Nat) : Rest env s (s.rcDone env baud) := by
  unfold Stack.rcDone
  split
  · exact ((Rest.lcsa s _).trans (.reportUnaware env _ _)).trans (.notify _ _ _)
  · exact ((Rest.lcsa s _).trans (.reportUnaware env _ _)).trans (.notify _ _ _)
  · exact ((Rest.lcsa s _).trans (.reportUnaware env _ _)).trans (.notify _ _ _)
  · exact (Rest.lcsa s _).trans (.notify _ _ _)
  · exact .lcsa s _

theorem Rest.rcOff (env : AEnv) (s : Stack) (now : Nat) : Rest env s (s.rcOff env now) := by
  unfold Stack.rcOff
  simp only
  have h1 := (Rest.setR s (fun c => { c with process := false }) fun c => ⟨rfl, rfl, rfl, rfl⟩).trans
    (.nodeMode env _ .stopped)
  generalize (Stack.nodeMode env (s.setR _) .stopped).1 = s1 at h1 ⊢
  have h2 := h1.trans (Rest.baudRate env s1 s.rc.back)
  generalize s1.baudRate env s.rc.back = r at h2 ⊢
  have h3 : Rest env s (if r.2 = E.ok then r.1.nodeMode env .operational else r).1 := by
    split
    · exact h2.trans (.nodeMode env _ _)
    · exact h2
  generalize (if r.2 = E.ok then r.1.nodeMode env .operational else r) = r' at h3 ⊢
  refine Rest.trans ?_ (.setR _ _ fun c => ⟨rfl, rfl, rfl, rfl⟩)
  have h4 : Rest env s (if r'.2 = E.ok then { r'.1 with lcsa := .running } else r'.1) := by
    split
    · exact h3.trans (.lcsa _ _)
    · exact h3
  generalize (if r'.2 = E.ok then { r'.1 with lcsa := .running } else r'.1) = s2 at h4 ⊢
  have h5 := h4.trans (Rest.setR s2 (fun c => { c with state := .off, nr := u16 (c.nr + 1) }) fun c => ⟨rfl, rfl, rfl, rfl⟩)
  generalize s2.setR _ = s3 at h5 ⊢
  split
  · exact h5.trans (.rcDone env _ _)
  · exact h5

theorem Rest.rcStartup (env : AEnv) (s : Stack) (now : Nat) : Rest env s (s.rcStartup env now) := by
  unfold Stack.rcStartup
  split
  · refine Rest.trans ?_ (.rcOn env _ _ _)
    refine Rest.trans (.notify s _ _) (.setR _ _ fun c => ⟨rfl, rfl, rfl, rfl⟩)
  · exact .refl s

theorem Rest.rcError (env : AEnv) (s : Stack) (now : Nat) (cause : RCause) : Rest env s (s.rcError env now cause) := by
  unfold Stack.rcError
  split
  · refine Rest.trans ?_ (.rcOn env _ _ _)
    refine Rest.trans ?_ (.setR _ _ fun c => ⟨rfl, rfl, rfl, rfl⟩)
    exact ((Rest.notify s _ _).trans (.nodeMode env _ _)).trans (.nodeMode env _ _)
  · exact .refl s

theorem Rest.rcSwitch (env : AEnv) (s : Stack) (now : Nat) : Rest env s (s.rcSwitch env now) := by
  unfold Stack.rcSwitch
  split
  · exact (Rest.nextBaud env s now).trans (.setR _ _ fun c => ⟨rfl, rfl, rfl, rfl⟩)
  · exact .refl s

theorem Rest.rcProcess (env : AEnv) (s : Stack) (now : Nat) (intid : Pending) (lec : Lec) :
    Rest env s (s.rcProcess env now intid lec) := by
  have hr : ∀ (s : Stack) (f : Recon → Recon),
    (∀ c, (f c).onStart = c.onStart ∧ (f c).onStop = c.onStop ∧ (f c).suStart = c.suStart ∧ (f c).suStop = c.suStop) →
    Rest env s (s.setR f) := fun s f h => .setR s f h
  unfold Stack.rcProcess
  split
  · exact .refl s
  split
  · split
    · refine Rest.trans ?_ (.rcOff env _ _); exact hr s _ fun c => ⟨rfl, rfl, rfl, rfl⟩
    split
    · refine Rest.trans ?_ (.rcOff env _ _); exact hr s _ fun c => ⟨rfl, rfl, rfl, rfl⟩
    split
    · refine Rest.trans ?_ (.rcOn env _ _ _); exact hr s _ fun c => ⟨rfl, rfl, rfl, rfl⟩
    split
    · exact .nextBaud env s now
    · exact .refl s
  · split
    · exact .rcOff env s now
    split
    · exact .rcSwitch env s now
    split
    · exact .rcOff env s now
    · have h := hr s (fun c => { c with bit0 := u16 (c.bit0 + 1) }) fun c => ⟨rfl, rfl, rfl, rfl⟩
      simp only
      generalize s.setR _ = s1 at h ⊢
      split
      · exact h.trans (.rcOff env _ _)
      · exact h
    · split
      · exact .rcOff env s now
      · exact .refl s
    · refine Rest.trans ?_ (.rcSwitch env _ _); exact hr s _ fun c => ⟨rfl, rfl, rfl, rfl⟩
  · have h := hr s (fun c => { c with idle := u16 (c.idle + 1) }) fun c => ⟨rfl, rfl, rfl, rfl⟩
    simp only
    generalize s.setR _ = s1 at h ⊢
    split
    · exact h.trans (hr _ _ fun c => ⟨rfl, rfl, rfl, rfl⟩)
    · exact h
  · exact .refl s

theorem Rest.hwError (env : AEnv) (s : Stack) (now : Nat) (bus : BusState) (lec : Lec) :
    Rest env s (s.hwError env now bus lec) := by
  unfold Stack.hwError
  have h1 : ∀ s : Stack, Rest env s (s.hwBusOff env now bus lec) := by
    intro s
    unfold Stack.hwBusOff
    split
    · exact ((Rest.nodeMode env s _).trans (.nodeMode env _ _)).trans (.rcError env _ _ _)
    · exact .refl s
  have h2 : ∀ s : Stack, Rest env s (s.hwPassive env now bus) := by
    intro s
    unfold Stack.hwPassive
    split
    · refine Rest.trans ?_ (.rcError env _ _ _)
      exact .slv s _ ⟨rfl, rfl⟩
    · exact .refl s
  have h : Rest env s (if (bus ≠ .active ∨ lec ≠ .none) ∧ s.rc.state = .off then (s.hwBusOff env now bus lec).hwPassive env now bus else s) := by
    split
    · exact (h1 s).trans (h2 _)
    · exact .refl s
  simp only
  generalize (ite ((bus ≠ .active ∨ lec ≠ .none) ∧ s.rc.state = .off) _ s) = s1 at h ⊢
  split
  · exact h.trans (.rcProcess env _ _ _ _)
  · exact h

theorem Rest.startAck (env : AEnv) (s : Stack) : Rest env s (s.startAck env) := by
  unfold Stack.startAck
  split
  · exact ((Quiet.refl s).endA env _).rest.trans (.info _ _ fun _ => XInfo.Ok.update _ _)
  · exact .refl s

theorem Rest.start (env : AEnv) (s : Stack) (now : Nat) : Rest env s (s.start env now).1 := by
  unfold Stack.start
  have key : ∀ r : Stack × Err, Rest env s r.1 →
      Rest env s (if r.2 = E.ok then ({ r.1.startAck env with lcsa := .running }, E.ok) else r).1 := by
    intro r h
    split
    · exact (h.trans (.startAck env r.1)).trans (.lcsa _ _)
    · exact h
  refine key _ ?_
  split
  · simp only
    have h := (Rest.setR s (fun c => { c with state := .off }) fun c => ⟨rfl, rfl, rfl, rfl⟩).trans (.nodeMode env _ .stopped)
    generalize (Stack.nodeMode env (s.setR _) .stopped).1 = s1 at h ⊢
    have h := (h.trans (.baudRate env s1 s1.slv.link.startup)).trans
      (.setR _ (fun c => { c with cause := .download }) fun c => ⟨rfl, rfl, rfl, rfl⟩)
    generalize (s1.baudRate env s1.slv.link.startup).1.setR _ = s2 at h ⊢
    have h := h.trans (.nodeMode env s2 .operational)
    generalize s2.nodeMode env .operational = r at h ⊢
    split
    · exact h.trans (.lcsa _ _)
    · exact h
  · simp only
    have h := (Rest.setR s (fun c => { c with state := .startup }) fun c => ⟨rfl, rfl, rfl, rfl⟩).trans (.nodeMode env _ .stopped)
    generalize (Stack.nodeMode env (s.setR _) .stopped).1 = s1 at h ⊢
    exact ((h.trans (.baudRate env s1 s1.slv.link.startup)).trans (.rcStartup env _ _)).trans (.nodeMode env _ _)

theorem Rest.init (env : AEnv) (s : Stack) (baud : Nat) : Rest env s (s.init env baud).1 := by
  have key : ∀ (s0 s1 : Stack) (b : Nat), Rest env s0 s1 → Rest env s0 (s1.setSlv env (s1.slv.init env.toEnv b).1) :=
    fun s0 s1 b h => h.trans (.setSlv env s1 _ (Slave.init_once env.toEnv s1.slv b))
  unfold Stack.init
  refine key s _ _ ?_
  have h3 : ∀ s0 s1 : Stack, Rest env s0 s1 → ∀ p : Prop, ∀ [Decidable p], Rest env s0 (if p then { s1 with lcsa := .download } else s1) := by
    intro s0 s1 h p _
    split
    · exact h.trans (.lcsa _ _)
    · exact h
  refine h3 s _ ?_ _
  have h2 : ∀ s0 s1 : Stack, Rest env s0 s1 → ∀ p : Prop, ∀ [Decidable p], ∀ n, Rest env s0 (if p then s1.setNode n else s1) := by
    intro s0 s1 h p _ n
    split
    · exact h.trans (.node _ _)
    · exact h
  exact h2 s _ (.info s _ fun _ => XInfo.Ok.init _ _) _ _

/-! ## One input -/

/-- registrations -/
def isReg : SIn → Bool
  | .hnd .. | .rcCb .. | .api (.timeCb _) | .api (.resetCb _) => true
  | _ => false

/-- calls that hand bytes or frames over for transmission -/
def isTx : SIn → Bool
  | .putc _ | .enqueue .. => true
  | _ => false

/-- inputs that may change the session of the tunnel -/
def isSess : SIn → Bool
  | .rx .. | .shutdown => true
  | _ => false

/-- what an input may do -/
structure Kind where
  /-- register a handler -/
  reg : Bool
  /-- hand bytes or frames over -/
  tx : Bool
  /-- change the tunnel session -/
  sess : Bool

/-- the kind of an input -/
def kindOf (i : SIn) : Kind := ⟨isReg i, isTx i, isSess i⟩

/-- no restriction -/
def anyKind : Kind := ⟨true, true, true⟩

/-- the elementary steps that concern the transmit queue, the tunnel or the registrations -/
inductive Atom (env : AEnv) (k : Kind) : Stack → Stack → Prop
  | rest {s s' : Stack} (h : Rest env s s') : Atom env k s s'
  | restT {s s' : Stack} (h : RestT env s s') (hk : k.sess = true) : Atom env k s s'
  | enqueue (s : Stack) (nr dlc : Nat) (src : List Byte) (hk : k.tx = true) : Atom env k s (s.enqueue env nr dlc src).1
  | putc (s : Stack) (x : Byte) (hk : k.tx = true) : Atom env k s (s.putc env x).1
  | retry (s : Stack) (h : s.tnl.lock ≠ 0) : Atom env k s (s.putcRetry env).1
  | flush (s : Stack) (now : Nat) : Atom env k s (s.processTx env now).1
  | hnd (s : Stack) (h : Hnd) (f : Option Nat) (hk : k.reg = true) : Atom env k s (s.setHnd h f).1
  | rcCb (s : Stack) (c : RCb) (f : Option Nat) (hk : k.reg = true) : Atom env k s (s.setRcCb c f)
  | timeCb (s : Stack) (f : Option Nat) (hk : k.reg = true) : Atom env k s { s with slv := s.slv.setTimeCb f }
  | resetCb (s : Stack) (f : Option Nat) (hk : k.reg = true) : Atom env k s { s with slv := s.slv.setResetCb f }

/-- a sequence of elementary steps -/
inductive Atoms (env : AEnv) (k : Kind) : Stack → Stack → Prop
  | nil (s : Stack) : Atoms env k s s
  | snoc {s1 s2 s3 : Stack} (h : Atoms env k s1 s2) (g : Atom env k s2 s3) : Atoms env k s1 s3

theorem Atoms.one {k : Kind} {s1 s2 : Stack} (h : Atom env k s1 s2) : Atoms env k s1 s2 := .snoc (.nil s1) h

theorem Atoms.trans {k : Kind} {s1 s2 s3 : Stack} (h : Atoms env k s1 s2) (g : Atoms env k s2 s3) : Atoms env k s1 s3 := by
  induction g with
  | nil => exact h
  | snoc _ k ih => exact .snoc ih k

theorem Atom.weak {k : Kind} {s1 s2 : Stack} (h : Atom env k s1 s2) : Atom env anyKind s1 s2 := by
  cases h with
  | rest h => exact .rest h
  | restT h => exact .restT h rfl
  | enqueue => exact .enqueue _ _ _ _ rfl
  | putc => exact .putc _ _ rfl
  | retry h => exact .retry _ (by assumption)
  | flush => exact .flush _ _
  | hnd => exact .hnd _ _ _ rfl
  | rcCb => exact .rcCb _ _ _ rfl
  | timeCb => exact .timeCb _ _ rfl
  | resetCb => exact .resetCb _ _ rfl

theorem Atoms.weak {k : Kind} {s1 s2 : Stack} (h : Atoms env k s1 s2) : Atoms env anyKind s1 s2 := by
  induction h with
  | nil => exact .nil _
  | snoc _ k ih => exact .snoc ih k.weak

theorem api_atom {env : AEnv} {s : Stack} {v : Slave} {i : In} (hi : isApi i = true)
    (h : s.slv.step env.toEnv i = some v) : Atom env (kindOf (.api i)) s { s with slv := v } := by
  have same : ∀ {w : Slave}, some w = some v → Slave.Once s.slv w → Atom env (kindOf (.api i)) s { s with slv := v } := by
    intro w hw o
    rw [← Option.some.inj hw]; exact .rest (.slv s _ o)
  cases i with
  | frame => cases hi
  | trigger => cases hi
  | setBaud => cases hi
  | init => cases hi
  | getPeriode =>
    refine same h ?_
    unfold Slave.getPeriode; simp only; split <;> exact ⟨rfl, rfl⟩
  | setCycle t =>
    refine same h ?_
    unfold Slave.setCycle; split <;> exact ⟨rfl, rfl⟩
  | validCb typ nr f => exact same h (Slave.setModCb_once ..)
  | invalidCb typ nr f => exact same h (Slave.setModCb_once ..)
  | reqCb typ nr f => exact same h (Slave.setModCb_once ..)
  | timeCb f => injection h with h; subst h; exact .timeCb s f rfl
  | resetCb f => injection h with h; subst h; exact .resetCb s f rfl
  | setMode m => exact same h ⟨rfl, rfl⟩
  | table o => exact same h ⟨rfl, rfl⟩
  | allCb f => exact same h ⟨rfl, rfl⟩
  | firstCb f => exact same h ⟨rfl, rfl⟩
  | firstStatusCb f => exact same h ⟨rfl, rfl⟩

/-- every input is a sequence of elementary steps -/
theorem step_atoms {env : AEnv} {s s' : Stack} {i : SIn} (h : s.step env i = some s') : Atoms env (kindOf i) s s' := by
  have ret : ∀ {t : Stack}, some t = some s' → Rest env s t → Atoms env (kindOf i) s s' := by
    intro t e r
    rw [← Option.some.inj e]; exact .one (.rest r)
  have reta : ∀ {t : Stack}, some t = some s' → Atom env (kindOf i) s t → Atoms env (kindOf i) s s' := by
    intro t e r
    rw [← Option.some.inj e]; exact .one r
  cases i with
  | rx now obj dlc id ext data =>
    simp only [Stack.step, Stack.rx] at h
    have h1 : Rest env s (s.setR fun c => { c with pending := .msg }) := .setR s _ fun c => ⟨rfl, rfl, rfl, rfl⟩
    generalize s.setR _ = s1 at h h1
    split at h
    · exact ret h h1
    split at h
    · exact ret h h1
    simp only [Option.map_eq_some_iff] at h
    obtain ⟨v, hv, h⟩ := h
    subst h
    refine Atoms.trans (.one (.rest (h1.trans (.setSlv env s1 v (Slave.handlerRx_once hv))))) ?_
    refine Atoms.trans (.one (.flush _ now)) ?_
    exact .one (.restT ((RestT.ctrlRx env _ obj id data).trans (Rest.dataRx env _ obj dlc data).t) rfl)
  | process now bus lec =>
    simp only [Stack.step, Stack.process] at h
    injection h with h
    subst h
    refine Atoms.trans (.one (.rest ?_)) (.one (.flush _ now))
    refine Rest.trans ?_ (.hwError env _ now bus lec)
    exact .slv s _ (Slave.trigger_once env.toEnv s.slv now)
  | init baud => exact ret h (.init env s baud)
  | start now => exact ret h (.start env s now)
  | setState l => exact ret h (.lcsa s l)
  | setBaud b => exact ret h (.baudRate env s b)
  | api i =>
    simp only [Stack.step] at h
    split at h
    · next hi =>
      simp only [Option.map_eq_some_iff] at h
      obtain ⟨v, hv, h⟩ := h
      subst h
      exact .one (api_atom hi hv)
    · exact ret h (.refl s)
  | hnd k f => exact reta h (.hnd s k f rfl)
  | dlStart c => exact ret h (Quiet.dlStart env s c).rest
  | act a => exact ret h (Quiet.act env s a).rest
  | ulData fuel data => exact .one (.rest (Quiet.ulData env fuel s s' data h).rest)
  | putc x => exact reta h (.putc s x rfl)
  | retry =>
    simp only [Stack.step] at h
    split at h
    · exact ret h (.refl s)
    · next hl => exact reta h (.retry s hl)
  | xonOff code =>
    refine ret h ?_
    unfold Stack.xonOff
    split
    · exact .refl s
    · exact .tx env s _ _
  | shutdown =>
    refine reta h (.restT ?_ rfl)
    unfold Stack.tnlShutdown
    split
    · exact .refl s
    · next ha =>
      refine RestT.trans ?_ (Rest.tx env _ _ _).t
      exact .setT s _ rfl rfl (.one (.shutdown (a := sessionOf s) (show s.tnl.state = .active by simpa using ha)))
  | enqueue nr dlc src => exact reta h (.enqueue s nr dlc src rfl)
  | info o => exact ret h (.info s _ fun k => k.step o)
  | rcCb k f => exact reta h (.rcCb s k f rfl)

theorem run_atoms {env : AEnv} (is : List SIn) : ∀ {s s' : Stack}, s.run env is = some s' → Atoms env anyKind s s' := by
  induction is with
  | nil => intro s s' h; injection h with h; subst h; exact .nil s
  | cons i is ih =>
    intro s s' h
    simp only [Stack.run, Option.bind_eq_some_iff] at h
    obtain ⟨s1, h1, h2⟩ := h
    exact (step_atoms h1).weak.trans (ih h2)

end Stack
end LiCan
