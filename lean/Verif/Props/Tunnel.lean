import Verif.Props.AsyncQueue
import Verif.Props.Transfer
/-! # Tunnel sessions -/
namespace LiCan
namespace Spec

/-- an open request of module `p`: connection type `typ`, delay `d1 d0` -/
def openMsg (p typ d1 d0 : Byte) (a b c : Byte) : List Byte := [0x01, p, a, b, typ, d1, d0, c]

/-- the answer that denies an open request -/
def openDeny (p : Byte) (e : Nat) : List Byte := [0x05, p, 0, 0, 0, 0] ++ bytes 2 e

/-- the answer that grants it -/
def openAck (p d1 d0 : Byte) : List Byte := [0x03, p, 0, 0, 0, d1, d0, 0]

end Spec
namespace Stack
open Spec
open Slave (at8 byteOf)

variable {env : AEnv}

theorem byteOf_at (x : Byte) : byteOf x.toNat 0 = x := by
  simp [byteOf]

theorem byteOf_hi (a b : Byte) : byteOf (a.toNat * 256 + b.toNat) 1 = a := by
  unfold byteOf
  have := b.toNat_lt
  have h : (a.toNat * 256 + b.toNat) / 256 ^ 1 = a.toNat := by omega
  rw [h]; simp

theorem byteOf_lo (a b : Byte) : byteOf (a.toNat * 256 + b.toNat) 0 = b := by
  unfold byteOf
  apply UInt8.toNat_inj.1
  have := b.toNat_lt
  simp

theorem bytes2 (e : Err) : bytes 2 e.toNat = [byteOf e.toNat 1, byteOf e.toNat 0] := by
  have h := e.isLt
  unfold bytes byteOf
  simp [digits]
  constructor <;> (apply UInt8.toNat_inj.1; simp)

theorem define_log (env : Env) (n : Node) (o : Nat) (d : ObjDef) : (n.define env o d).1.log = n.log := by
  unfold Node.define
  split
  · rfl
  · dsimp only
    split <;> rfl

theorem deny_log (env : AEnv) (s : Stack) (p : Byte) (nr : Nat) (e : Err) (h1 : 1 ≤ nr) (h2 : nr < 16000) :
    logOf (s.tnlDeny env 0x05 p.toNat nr e) = .frame (ctrlFrame nr (openDeny p e.toNat)) (env.sendOk s.slv.node.sendN) :: logOf s := by
  unfold tnlDeny openDeny
  rw [bytes2, byteOf_at]
  exact ctrlTx_log env s nr _ h1 h2

/-! ## C33 -/

/-- **C33**: an open request during a session is denied with ALREADY_USED; the application is not
called and nothing but the answer happens. -/
theorem C33_already_used (s : Stack) (nr tp : Nat) (p typ d1 d0 a b c : Byte) (ha : Addressed env s nr tp)
    (h1 : 1 ≤ nr) (h2 : nr < 16000) (hs : s.tnl.state ≠ .free) :
    let r := s.asyncRx env nr (openMsg p typ d1 d0 a b c)
    r.2 = E.ok ∧
    logOf r.1 = .frame (ctrlFrame nr (openDeny p 0x5001)) (env.sendOk s.slv.node.sendN) :: logOf s ∧
    r.1.tnl = s.tnl ∧ r.1.q = s.q ∧ r.1.x = s.x ∧ r.1.callN = s.callN ∧
    r.1.slv = { s.slv with node := { s.slv.node with log := logOf r.1, sendN := s.slv.node.sendN + 1 } } := by
  intro r
  have e : r = (s.tnlDeny env 0x05 p.toNat nr E.tnlAlreadyUsed, E.ok) := by
    show s.asyncRx env nr _ = _
    rw [asyncRx_eq ha]
    show s.tnlOpen env nr _ = _
    unfold tnlOpen
    rw [if_neg hs]
    rfl
  rw [e]
  exact ⟨rfl, deny_log env s p nr _ h1 h2, rfl, rfl, rfl, rfl, rfl⟩

/-- partners and connection data -/
def sameIds (a b : Session) : Prop := b.own = a.own ∧ b.prim = a.prim ∧ b.sec = a.sec ∧ b.typ = a.typ ∧ b.delay = a.delay

/-- no session was opened -/
def NoOpen (a b : Session) : Prop := b.state = .free ∨ (a.state ≠ .free ∧ sameIds a b)

theorem NoOpen.of_eq {a b : Session} (h : b = a) : NoOpen a b := by
  subst h
  by_cases hs : b.state = .free
  · exact .inl hs
  · exact .inr ⟨hs, rfl, rfl, rfl, rfl, rfl⟩

theorem NoOpen.trans {a b c : Session} (h : NoOpen a b) (g : NoOpen b c) : NoOpen a c := by
  rcases g with g | ⟨g, g1, g2, g3, g4, g5⟩
  · exact .inl g
  · rcases h with h | ⟨h, h1, h2, h3, h4, h5⟩
    · exact absurd h g
    · exact .inr ⟨h, g1.trans h1, g2.trans h2, g3.trans h3, g4.trans h4, g5.trans h5⟩

theorem Quiet.sess {s s' : Stack} (h : Quiet s s') : sessionOf s' = sessionOf s := by
  unfold sessionOf; rw [h.tnl]

/-- only the open command opens -/
theorem command_noOpen (env : AEnv) (s : Stack) (nr tp : Nat) (src : List Byte) (h : at8 src 0 ≠ 1) :
    NoOpen (sessionOf s) (sessionOf (s.command env nr tp src).1) := by
  have qt : ∀ {t : Stack}, Quiet s t → NoOpen (sessionOf s) (sessionOf t) := fun q => .of_eq q.sess
  unfold Stack.command
  split
  · exact qt (Quiet.versionShort env s nr src)
  · exact qt (Quiet.versionLong1 s src)
  · exact qt (Quiet.versionLong2 env s nr src)
  · exact qt (Quiet.dlStart1 s src)
  · exact qt (Quiet.dlStart2 env s nr tp src)
  · exact qt (Quiet.dlData env s nr src)
  · exact qt (Quiet.dlBlockEnd env s nr src)
  · exact qt (Quiet.dlEnd env s nr)
  · exact .of_eq (Rest.tnlX env s src _).sess
  · exact .of_eq (Rest.tnlX env s src _).sess
  · next h' => exact absurd h' h
  · unfold Stack.tnlCloseReq
    have hq := Quiet.callPort env s .tnlFree
    generalize s.callPort env .tnlFree = r at hq ⊢
    simp only
    split
    · exact .inl rfl
    · exact qt (hq.trans (Quiet.ctrlTx env _ _ _))
  · exact .of_eq (Rest.tnlReset env s).sess
  · exact .of_eq rfl
  · unfold Stack.tnlCloseAck
    split
    · exact .inl rfl
    · exact .of_eq rfl
  · exact .of_eq rfl
  · unfold Stack.tnlCloseDeny
    split
    · next hd => exact .inr ⟨by show s.tnl.state ≠ .free; rw [hd.1]; decide, rfl, rfl, rfl, rfl, rfl⟩
    · exact .of_eq rfl
  · exact .of_eq rfl
  · exact .of_eq rfl
  · exact qt (Quiet.ulBlockAckn env s)
  · exact qt (Quiet.ulStop s)
  · exact qt (Quiet.ulStop s)
  · exact qt (Quiet.infoShort env s nr src)
  · exact qt (Quiet.ulStart1 s nr src)
  · exact qt (Quiet.ulStart2 env s nr src)
  · exact .of_eq rfl

/-- an open request during a session leaves the session -/
theorem command_open (env : AEnv) (s : Stack) (nr tp : Nat) (src : List Byte) (h : at8 src 0 = 1)
    (hs : s.tnl.state ≠ .free) : sessionOf (s.command env nr tp src).1 = sessionOf s := by
  unfold Stack.command
  rw [h]
  show sessionOf (s.tnlOpen env nr src).1 = _
  unfold tnlOpen
  rw [if_neg hs]
  exact (Quiet.ctrlTx env s _ _).sess

theorem asyncRx_noOpen (env : AEnv) (s : Stack) (nr : Nat) (src : List Byte) (hs : s.tnl.state ≠ .free) :
    NoOpen (sessionOf s) (sessionOf (s.asyncRx env nr src).1) := by
  unfold Stack.asyncRx
  split
  · exact .of_eq rfl
  split
  · exact .of_eq rfl
  by_cases h : at8 src 0 = 1
  · exact .of_eq (command_open env s nr _ src h hs)
  · exact command_noOpen env s nr _ src h

theorem ctrlFold_noOpen (env : AEnv) (obj nr : Nat) (src : List Byte) (l : List Nat) : ∀ s : Stack,
    (at8 src 0 = 1 → s.tnl.state ≠ .free) →
    NoOpen (sessionOf s) (sessionOf (l.foldl (ctrlStep env obj nr src) s)) := by
  induction l with
  | nil => exact fun s _ => .of_eq rfl
  | cons k l ih =>
    intro s hs
    have key : NoOpen (sessionOf s) (sessionOf (ctrlStep env obj nr src s k)) ∧
        (at8 src 0 = 1 → (ctrlStep env obj nr src s k).tnl.state ≠ .free) := by
      unfold Stack.ctrlStep
      split
      · show NoOpen (sessionOf s) (sessionOf (s.asyncRx env nr src).1) ∧ (_ → (s.asyncRx env nr src).1.tnl.state ≠ _)
        unfold Stack.asyncRx
        split
        · exact ⟨.of_eq rfl, hs⟩
        split
        · exact ⟨.of_eq rfl, hs⟩
        by_cases h : at8 src 0 = 1
        · have e := command_open env s nr (by assumption) src h (hs h)
          refine ⟨.of_eq e, fun _ => ?_⟩
          have := congrArg Session.state e
          show (sessionOf _).state ≠ _
          rw [this]; exact hs h
        · exact ⟨command_noOpen env s nr _ src h, fun e => absurd e h⟩
      · exact ⟨.of_eq rfl, hs⟩
    exact key.1.trans (ih _ key.2)

theorem Rest.noOpen {s s' : Stack} (h : Rest env s s') : NoOpen (sessionOf s) (sessionOf s') := .of_eq h.sess

theorem enqueue_tnl (env : AEnv) (s : Stack) (nr dlc : Nat) (src : List Byte) : (s.enqueue env nr dlc src).1.tnl = s.tnl := by
  have hh : ∀ s : Stack, (handleQ env s).1.tnl = s.tnl := by
    intro s
    unfold handleQ
    split
    · dsimp only
      split <;> rfl
    · rfl
  have hk : ∀ s : Stack, (handlerTx env s).tnl = s.tnl := by
    intro s
    unfold handlerTx
    split
    · split
      · exact hh s
      · rfl
    · rfl
  unfold enqueue
  split
  · rfl
  split
  · rfl
  · exact hk _

theorem retry_sess (env : AEnv) (s : Stack) : sessionOf (s.putcRetry env).1 = sessionOf s := by
  unfold putcRetry
  have h := enqueue_tnl env s s.tnl.own s.tnl.tmp.length s.tnl.tmp
  generalize s.enqueue env s.tnl.own s.tnl.tmp.length s.tnl.tmp = r at h ⊢
  simp only
  split
  · unfold sessionOf setT
    dsimp only
    rw [h]
  · unfold sessionOf; rw [h]

theorem flush_sess (env : AEnv) (s : Stack) (now : Nat) : sessionOf (s.processTx env now).1 = sessionOf s := by
  unfold processTx
  split
  · rfl
  split
  · split
    · have h := enqueue_tnl env s s.tnl.own s.tnl.tmp.length s.tnl.tmp
      generalize s.enqueue env s.tnl.own s.tnl.tmp.length s.tnl.tmp = r at h ⊢
      simp only
      split
      · unfold sessionOf setT
        dsimp only
        rw [h]
      · unfold sessionOf; rw [h]
    · rfl
  · rfl

theorem putc_sess (env : AEnv) (s : Stack) (x : Byte) : sessionOf (s.putc env x).1 = sessionOf s := by
  unfold putc
  split
  · rfl
  split
  · simp only
    split
    · exact retry_sess env _
    · rfl
  · rfl

/-- an elementary step that is not a change of the session -/
theorem Atom.sess {k : Kind} {s s' : Stack} (h : Atom env k s s') (hk : k.sess = false) : sessionOf s' = sessionOf s := by
  cases h with
  | rest r => exact r.sess
  | restT r e => rw [hk] at e; cases e
  | enqueue => unfold sessionOf; rw [enqueue_tnl]
  | putc => exact putc_sess env s _
  | retry => exact retry_sess env s
  | flush => exact flush_sess env s _
  | hnd => unfold setHnd; split <;> rfl
  | rcCb =>
    rename_i c f _
    cases c <;> (unfold setRcCb; dsimp only; split <;> rfl)
  | timeCb => rfl
  | resetCb => rfl

theorem Atoms.sess {k : Kind} {s s' : Stack} (h : Atoms env k s s') (hk : k.sess = false) : sessionOf s' = sessionOf s := by
  induction h with
  | nil => rfl
  | snoc _ g ih => exact (g.sess hk).trans ih

theorem Atom.path {k : Kind} {s s' : Stack} (h : Atom env k s s') : SessPath (sessionOf s) (sessionOf s') := by
  by_cases e : ∃ r : RestT env s s', True
  · exact e.choose.path
  · cases h with
    | restT r => exact absurd ⟨r, trivial⟩ e
    | rest r => exact .of_eq r.sess
    | enqueue => exact .of_eq (by unfold sessionOf; rw [enqueue_tnl])
    | putc => exact .of_eq (putc_sess env s _)
    | retry => exact .of_eq (retry_sess env s)
    | flush => exact .of_eq (flush_sess env s _)
    | hnd => exact .of_eq (by unfold setHnd; split <;> rfl)
    | rcCb =>
      rename_i c f _
      cases c <;> (unfold setRcCb; dsimp only; split <;> exact .nil _)
    | timeCb => exact .nil _
    | resetCb => exact .nil _

theorem Atoms.path {k : Kind} {s s' : Stack} (h : Atoms env k s s') : SessPath (sessionOf s) (sessionOf s') := by
  induction h with
  | nil => exact .nil _
  | snoc _ g ih => exact ih.trans g.path

/-- **C33**, one input: as long as a session lasts, its partners and connection data stay; only a received
frame and a shutdown can change the session at all. -/
theorem C33_kept {s s' : Stack} {i : SIn} (h : s.step env i = some s') :
    ((∀ now obj dlc id ext data, i ≠ .rx now obj dlc id ext data) → i ≠ .shutdown → sessionOf s' = sessionOf s) ∧
    (s.tnl.state ≠ .free → s'.tnl.state ≠ .free → sameIds (sessionOf s) (sessionOf s')) := by
  have h0 : (∀ now obj dlc id ext data, i ≠ .rx now obj dlc id ext data) → i ≠ .shutdown → sessionOf s' = sessionOf s := by
    intro h1 h2
    refine (step_atoms h).sess ?_
    cases i with
    | rx => exact absurd rfl (h1 _ _ _ _ _ _)
    | shutdown => exact absurd rfl h2
    | _ => rfl
  refine ⟨h0, fun hs hs' => ?_⟩
  suffices hn : NoOpen (sessionOf s) (sessionOf s') by
    rcases hn with e | e
    · exact absurd e hs'
    · exact e.2
  cases i with
  | rx now obj dlc id ext data =>
    simp only [Stack.step, Stack.rx] at h
    split at h
    · injection h with h; subst h; exact .of_eq rfl
    split at h
    · injection h with h; subst h; exact .of_eq rfl
    simp only [Option.map_eq_some_iff] at h
    obtain ⟨v, hv, h⟩ := h
    subst h
    have e1 : sessionOf ((Stack.setSlv env (s.setR fun c => { c with pending := .msg }) v).processTx env now).1 = sessionOf s :=
      flush_sess env _ now
    generalize ((Stack.setSlv env (s.setR fun c => { c with pending := .msg }) v).processTx env now).1 = s1 at e1
    refine NoOpen.trans ?_ (Rest.dataRx env _ obj dlc data).noOpen
    refine NoOpen.trans (.of_eq e1) ?_
    unfold Stack.ctrlRx
    split
    · refine ctrlFold_noOpen env obj _ data _ s1 fun _ => ?_
      have := congrArg Session.state e1
      show (sessionOf s1).state ≠ _
      rw [this]; exact hs
    · exact .of_eq rfl
  | shutdown =>
    injection h with h
    subst h
    unfold Stack.tnlShutdown
    split
    · exact .of_eq rfl
    · exact .inr ⟨hs, rfl, rfl, rfl, rfl, rfl⟩
  | _ => exact .of_eq (h0 (fun _ _ _ _ _ _ e => by cases e) (fun e => by cases e))

/-- the session is never free during a history -/
def Lasting (env : AEnv) : Stack → List SIn → Prop
  | s, [] => s.tnl.state ≠ .free
  | s, i :: is => s.tnl.state ≠ .free ∧ ∀ s', s.step env i = some s' → Lasting env s' is

/-- **C33**, any history: as long as there is a session it is the same one. -/
theorem C33_history (is : List SIn) : ∀ {s s' : Stack}, Lasting env s is → run env s is = some s' →
    sameIds (sessionOf s) (sessionOf s') := by
  induction is with
  | nil =>
    intro s s' _ h
    injection h with h
    subst h
    exact ⟨rfl, rfl, rfl, rfl, rfl⟩
  | cons i is ih =>
    intro s s' hl h
    simp only [Stack.run, Option.bind_eq_some_iff] at h
    obtain ⟨s1, h1, h2⟩ := h
    have hl1 := hl.2 s1 h1
    have hs1 : s1.tnl.state ≠ .free := by
      cases is with
      | nil => exact hl1
      | cons => exact hl1.1
    obtain ⟨a1, a2, a3, a4, a5⟩ := (C33_kept h1).2 hl.1 hs1
    obtain ⟨b1, b2, b3, b4, b5⟩ := ih hl1 h2
    exact ⟨b1.trans a1, b2.trans a2, b3.trans a3, b4.trans a4, b5.trans a5⟩

/-! ## C34 -/

/-- **C34**, exact outcome of an open request without a session: the port decides first; if it agrees the
session is open whatever the connection type, but a type other than 0 is answered by a deny. -/
theorem C34_exact (s : Stack) (nr tp : Nat) (p typ d1 d0 a b c : Byte) (ha : Addressed env s nr tp)
    (h1 : 1 ≤ nr) (h2 : nr < 16000) (hs : s.tnl.state = .free) :
    let s' := (s.asyncRx env nr (openMsg p typ d1 d0 a b c)).1
    let e := (env.reply s.callN .tnlOpen).err
    let new : Session := ⟨.active, nr, p.toNat, nr, typ.toNat, d1.toNat * 256 + d0.toNat⟩
    if e ≠ E.ok then
      sessionOf s' = sessionOf s ∧
        ∃ ok l, logOf s' = .frame (ctrlFrame nr (openDeny p e.toNat)) ok :: (l ++ .app .tnlOpen :: logOf s)
    else if typ = 0 then
      sessionOf s' = new ∧ ∃ ok l, logOf s' = .frame (ctrlFrame nr (openAck p d1 d0)) ok :: (l ++ .app .tnlOpen :: logOf s)
    else
      sessionOf s' = new ∧
        ∃ ok l, logOf s' = .frame (ctrlFrame nr (openDeny p 0x506D)) ok :: (l ++ .app .tnlOpen :: logOf s) := by
  intro s' e new
  have hcall : ∃ l, logOf (s.callPort env .tnlOpen).1 = l ++ .app .tnlOpen :: logOf s := by
    obtain ⟨l, k, hl, -⟩ := (Quiet.acts env (env.reply s.callN .tnlOpen).acts ({ s with callN := s.callN + 1 }.logCall .tnlOpen)).node
    refine ⟨l, ?_⟩
    have := congrArg Node.log hl
    exact this
  have hq := Quiet.callPort env s .tnlOpen
  have hs' : s' = (s.tnlOpen env nr (openMsg p typ d1 d0 a b c)).1 := by
    show (s.asyncRx env nr _).1 = _
    rw [asyncRx_eq ha]
    rfl
  have he : (s.callPort env .tnlOpen).2 = e := rfl
  rw [hs']
  unfold tnlOpen
  rw [if_pos hs]
  generalize s.callPort env .tnlOpen = r at hcall hq he ⊢
  obtain ⟨l, hl⟩ := hcall
  simp only
  rw [he]
  by_cases hk : e = E.ok
  · rw [if_neg (not_not_intro hk), if_pos hk]
    by_cases ht : typ = 0
    · subst ht
      rw [if_pos rfl, if_pos (show at8 (openMsg p 0 d1 d0 a b c) 4 = 0 from rfl)]
      refine ⟨rfl, ?_⟩
      unfold tnlOpenAck
      rw [ctrlTx_log env _ nr _ h1 h2]
      refine ⟨_, l, congr (congrArg List.cons (congr (congrArg Ev.frame (congrArg (ctrlFrame nr) ?_)) rfl)) ?_⟩
      · show [_, byteOf p.toNat 0, _, _, _, byteOf (d1.toNat * 256 + d0.toNat) 1, byteOf (d1.toNat * 256 + d0.toNat) 0, _] = _
        rw [byteOf_at, byteOf_hi, byteOf_lo]
        rfl
      · rw [← hl]
        exact define_log _ _ _ _
    · have h0 : at8 (openMsg p typ d1 d0 a b c) 4 ≠ 0 := by
        show typ.toNat ≠ 0
        intro e0
        exact ht (UInt8.toNat_inj.1 e0)
      rw [if_neg ht, if_neg h0]
      refine ⟨rfl, ?_⟩
      have := deny_log env (r.1.setT fun t => { t with
        own := nr, prim := p.toNat, sec := nr, state := .active, typ := typ.toNat
        delay := d1.toNat * 256 + d0.toNat }) p nr E.tunnelHndlNotDefined h1 h2
      exact ⟨_, l, this.trans (congrArg _ hl)⟩
  · rw [if_pos hk, if_neg hk]
    exact ⟨(Quiet.sess (hq.trans (Quiet.ctrlTx env _ _ _))), _, l, (deny_log env r.1 p nr e h1 h2).trans (congrArg _ hl)⟩

/-- **C34**, what holds: if the connection type is 0 or the port refuses, a request that is answered by a deny
leaves no session. -/
theorem C34_partial (s : Stack) (nr tp : Nat) (p typ d1 d0 a b c : Byte) (ha : Addressed env s nr tp)
    (h1 : 1 ≤ nr) (h2 : nr < 16000) (hs : s.tnl.state = .free)
    (ht : typ = 0 ∨ (env.reply s.callN .tnlOpen).err ≠ E.ok) {f : Frame} {ok : Bool} {l : List Ev}
    (hf : logOf (s.asyncRx env nr (openMsg p typ d1 d0 a b c)).1 = .frame f ok :: l) (h5 : f.data[0]? = some 5) :
    (s.asyncRx env nr (openMsg p typ d1 d0 a b c)).1.tnl.state = .free := by
  have h := C34_exact (env := env) s nr tp p typ d1 d0 a b c ha h1 h2 hs
  simp only at h
  by_cases he : (env.reply s.callN .tnlOpen).err = E.ok
  · have ht := ht.resolve_right (not_not_intro he)
    rw [if_neg (not_not_intro he), if_pos ht] at h
    obtain ⟨-, ok', l', h⟩ := h
    rw [hf] at h
    injection h with h _
    injection h with h _
    rw [h] at h5
    exact absurd h5 (by simp [ctrlFrame, openAck])
  · rw [if_pos he] at h
    have := congrArg Session.state h.1
    exact this.trans hs

/-! ## C36 -/

/-- **C36**, exactly: from any moment on, whatever follows - further sessions, also of other modules -, the
payloads of the tunnel's frames are the bytes buffered at that moment, followed by the bytes written since,
less what is still buffered.  What is buffered are the last bytes written before, at most seven unless a
write is waiting for room. -/
theorem C36_exact {mem : Nat → List Byte} {info : XInfo} {is is' : List SIn} {s s' : Stack}
    (h : run env (boot mem info) is = some s) (h' : run env s is' = some s') :
    ∃ o, Hist env s o s' ∧ o.wrote = written env s is' ∧
      pendingOf s.q ++ o.acc.map (·.2) = o.sent ++ pendingOf s'.q ∧
      tunnelBytes o.acc ++ s'.tnl.tmp = s.tnl.tmp ++ written env s is' ∧
      s.tnl.tmp <:+ written env (boot mem info) is ∧
      s.tnl.tmp.length ≤ 8 ∧ (s.tnl.lock = 0 → s.tnl.tmp.length ≤ 7) := by
  obtain ⟨o, -, k, w, -⟩ := books_boot h
  have k0 : Books (pendingOf s.q) s.tnl.tmp {} s :=
    ⟨k.ring, k.buf, by simp, by simp [tunnelBytes], fun _ h => (by cases h), fun _ h => (by cases h)⟩
  obtain ⟨o', a, b, c, -⟩ := books is' (.nil s) k0 h'
  rw [List.nil_append] at c
  refine ⟨o', a, c, b.queue, by rw [← c, b.stream], ⟨tunnelBytes o.acc, ?_⟩, ?_, ?_⟩
  · rw [← w, ← k.stream, List.nil_append]
  · rcases k.buf with e | e <;> omega
  · rcases k.buf with e | e <;> omega

/-- **C36**, what holds: from a moment at which nothing is buffered (no bytes were left over by an earlier
session), the frames the tunnel transmits in whatever follows carry only bytes written since, in order. -/
theorem C36_partial {mem : Nat → List Byte} {info : XInfo} {is is' : List SIn} {s s' : Stack}
    (h : run env (boot mem info) is = some s) (ht : s.tnl.tmp = []) (h' : run env s is' = some s') :
    ∃ o, Hist env s o s' ∧ o.wrote = written env s is' ∧
      pendingOf s.q ++ o.acc.map (·.2) = o.sent ++ pendingOf s'.q ∧
      tunnelBytes o.acc ++ s'.tnl.tmp = written env s is' := by
  obtain ⟨o, a, b, c, d, -⟩ := C36_exact h h'
  exact ⟨o, a, b, c, by rw [d, ht, List.nil_append]⟩

/-! ## C37 -/

/-- **C37**: a control message to a number that is not in the table, or whose module is silent, changes
nothing at all. -/
theorem C37_ignored (s : Stack) (obj nr : Nat) (src : List Byte) (h1 : 1 ≤ nr) (h2 : nr ≤ 128)
    (hn : ¬ ∃ tp, Addressed env s nr tp) : s.ctrlRx env obj (0x600 + 4 * (nr - 1)) src = s := by
  have hid : asyncNrOfId (0x600 + 4 * (nr - 1)) = nr := by
    rw [asyncNrOfId_eq _ (by omega) (by omega)]; omega
  have hr : s.asyncRx env nr src = (s, E.ok) := by
    unfold Stack.asyncRx
    split
    · rfl
    · next tp hf =>
      rw [if_pos]
      exact Decidable.byContradiction fun hs => hn ⟨tp, hf, hs⟩
  have hf : ∀ l : List Nat, l.foldl (ctrlStep env obj nr src) s = s := by
    intro l
    induction l with
    | nil => rfl
    | cons k l ih =>
      have : ctrlStep env obj nr src s k = s := by
        unfold Stack.ctrlStep
        split
        · rw [hr]
          show s.setNode (s.slv.node.report env.toEnv E.ok) = s
          unfold Node.report
          rw [if_neg (fun h => h.2 rfl)]
          rfl
        · rfl
      rw [List.foldl_cons, this, ih]
  unfold Stack.ctrlRx
  rw [hid, hf]
  exact ite_self s

/-! ## C60 -/

/-- **C60**, what holds: XON, XOFF, the acknowledge and the denial of a close have no effect unless they name
the partner of the session. -/
theorem C60_partial (s : Stack) (nr tp : Nat) (src : List Byte) (ha : Addressed env s nr tp)
    (hc : at8 src 0 = 0x0A ∨ at8 src 0 = 0x09 ∨ at8 src 0 = 0x04 ∨ at8 src 0 = 0x06)
    (hp : s.tnl.state = .free ∨ at8 src 1 ≠ s.tnl.prim) : s.asyncRx env nr src = (s, E.ok) := by
  rw [asyncRx_eq ha]
  have k1 : ∀ c, s.tnlX env src c = s := by
    intro c
    unfold tnlX
    rw [if_neg]
    rintro ⟨a, b⟩
    rcases hp with e | e
    · rw [e] at a; cases a
    · exact e b.symm
  have k2 : ¬ (s.tnl.state = .shutdown ∧ s.tnl.prim = at8 src 1 ∧ s.tnl.own = nr) := by
    rintro ⟨a, b, -⟩
    rcases hp with e | e
    · rw [e] at a; cases a
    · exact e b.symm
  unfold Stack.command
  rcases hc with e | e | e | e <;> rw [e]
  · show (s.tnlX env src _, E.ok) = _
    rw [k1]
  · show (s.tnlX env src _, E.ok) = _
    rw [k1]
  · show s.tnlCloseAck env nr src = _
    unfold tnlCloseAck
    rw [if_neg k2]
  · show (s.tnlCloseDeny nr src, E.ok) = _
    unfold tnlCloseDeny
    rw [if_neg k2]

/-! ## C61 -/

/-- no payload is handed to the port -/
def NoData (s s' : Stack) : Prop := ∃ l, logOf s' = l ++ logOf s ∧ ∀ e ∈ l, ∀ d n, e ≠ .app (.tnlData d n)

theorem NoData.same {s s' : Stack} (h : logOf s' = logOf s) : NoData s s' := ⟨[], h, fun _ h => (by cases h)⟩

theorem NoData.tx {s s' t : Stack} (h : logOf s' = logOf s) (nr : Nat) (d : List Byte)
    (ht : logOf t = logOf (s'.ctrlTx env nr d)) : NoData s t := by
  refine ⟨[_], ht.trans (congrArg _ h), fun e he _ _ => ?_⟩
  rw [List.mem_singleton.1 he]
  exact fun h => by cases h

theorem NoData.act (env : AEnv) (s : Stack) (a : Act) : NoData s (s.act env a) := by
  cases a with
  | startAckn nr m d => exact .tx (env := env) rfl nr _ rfl
  | endAckn nr => exact .tx (env := env) (s' := s) rfl nr _ rfl
  | termination nr e => exact .tx (env := env) (s' := s) rfl nr _ rfl
  | versionAnswer nr i c d => exact .tx (env := env) (s' := s) rfl nr _ rfl
  | infoAnswer nr i z => exact .tx (env := env) (s' := s) rfl nr _ rfl
  | uloadEnd nr => exact .tx (env := env) (s' := s) rfl nr _ rfl
  | get =>
    refine ⟨[_], rfl, fun e he _ _ => ?_⟩
    rw [List.mem_singleton.1 he]
    exact fun h => by cases h
  | _ => exact .same rfl

theorem NoData.acts (env : AEnv) (l : List Act) : ∀ s : Stack, NoData s (l.foldl (Stack.act env) s) := by
  induction l with
  | nil => exact fun s => .same rfl
  | cons a l ih =>
    intro s
    obtain ⟨l1, h1, k1⟩ := NoData.act env s a
    obtain ⟨l2, h2, k2⟩ := ih (s.act env a)
    refine ⟨l2 ++ l1, by rw [List.foldl_cons, h2, h1, List.append_assoc], fun e he => ?_⟩
    rcases List.mem_append.1 he with he | he
    · exact k2 e he
    · exact k1 e he

/-- **C61**, what holds: the payload received in the object of asynchronous data, and in no other object, is
handed to the port exactly once, cut to the length of the frame. -/
theorem C61_partial (s : Stack) (obj dlc : Nat) (src : List Byte) :
    if obj = 6 then ∃ l, logOf (s.dataRx env obj dlc src) = l ++ .app (.tnlData (src.take dlc) dlc) :: logOf s ∧
      ∀ e ∈ l, ∀ d n, e ≠ .app (.tnlData d n)
    else s.dataRx env obj dlc src = s := by
  unfold dataRx
  split
  · exact NoData.acts env _ ({ s with callN := s.callN + 1 }.logCall (.tnlData (src.take dlc) dlc))
  · rfl

/-! ## C62 -/

/-- **C62**, what holds: at every processing later than 50 ms after the start of the tick counter (plus the
number of buffered bytes) a partly filled object of an active session is handed over if there is room; it is not
held back. -/
theorem C62_partial {mem : Nat → List Byte} {info : XInfo} {is : List SIn} {s : Stack}
    (h : run env (boot mem info) is = some s) (now : Nat) (hs : s.tnl.state = .active)
    (hl : 0 < s.tnl.tmp.length ∧ s.tnl.tmp.length < 8)
    (hw : s.tnl.tmp.length + env.ms2t 50 < 2 ^ 32) (hn : s.tnl.tmp.length + env.ms2t 50 < now)
    (hq : (pendingOf s.q).length < 4) :
    let s' := (s.processTx env now).1
    s'.tnl.tmp = [] ∧
    pendingOf s.q ++ [⟨asyncDataTxId s.tnl.own, s.tnl.tmp.length, s.tnl.tmp⟩] = okFrames (newLog s s') ++ pendingOf s'.q := by
  intro s'
  obtain ⟨o, -, k, -, -⟩ := books_boot h
  rw [pendingOf_length] at hq
  have hlk : s.tnl.lock = 0 := by
    rcases k.buf with e | e
    · exact e.1
    · omega
  obtain ⟨-, -, e, -⟩ := enqueue_balance env s k.ring s.tnl.own s.tnl.tmp.length s.tnl.tmp
  obtain ⟨-, -, c⟩ := handOver env s k.ring (Nat.le_of_lt hl.2)
  have ek := e.2 ⟨hq, Nat.le_of_lt hl.2⟩
  have hs' : s' = (s.enqueue env s.tnl.own s.tnl.tmp.length s.tnl.tmp).1.setT fun t => { t with tmp := [] } := by
    show (s.processTx env now).1 = _
    unfold processTx
    rw [if_neg (not_not_intro hlk), if_pos hs,
      if_pos ⟨hl.1, by unfold u32; rw [Nat.mod_eq_of_lt hw]; exact hn⟩]
    dsimp only
    rw [if_pos ek]
  rw [if_pos ek] at c
  rw [hs']
  exact ⟨rfl, c⟩

/-! ## Cases -/

/-- C33: an open request of module 7 while module 3 has a session with module 5 is denied -/
example : (run exA (boot Node.exMem exInfo) (exOpened ++ [.rx 0 5 8 0x610 false (openMsg 7 0 0 9 0 0 0)])).map
      (fun s => (sessionOf s, (exFrames s).drop 1, (exApp s).length)) =
    some (⟨.active, 5, 3, 5, 0, 20⟩, [⟨0x611, 8, [5, 7, 0, 0, 0, 0, 0x50, 1]⟩], 1) := by decide +kernel

/-- C34: an open request of type 0 that the port refuses -/
example : (run { exA with reply := fun _ _ => { err := 0x1234#16 } } (boot Node.exMem exInfo) exOpened).map
      (fun s => ((sessionOf s).state, exFrames s)) =
    some (.free, [⟨0x611, 8, [5, 3, 0, 0, 0, 0, 0x12, 0x34]⟩]) := by decide +kernel

/-- **C34** is false: a request of type 1 is denied, yet the session is active afterwards. -/
theorem C34_counterexample :
    ∃ s : Stack, run exA (boot Node.exMem exInfo) exSetup = some s ∧ Addressed exA s 5 0 ∧ s.tnl.state = .free ∧
      ∃ s', run exA s [.rx 0 5 8 0x610 false (openMsg 3 1 0 20 0 0 0)] = some s' ∧
        logOf s' = .frame (ctrlFrame 5 (openDeny 3 0x506D)) true :: .app .tnlOpen :: logOf s ∧
        sessionOf s' = ⟨.active, 5, 3, 5, 1, 20⟩ := by
  refine ⟨exS, exS_run, by decide +kernel, by decide +kernel, ?_⟩
  have hk : ((run exA exS [.rx 0 5 8 0x610 false (openMsg 3 1 0 20 0 0 0)]).map
      fun s' => decide (logOf s' = .frame (ctrlFrame 5 (openDeny 3 0x506D)) true :: .app .tnlOpen :: logOf exS ∧
        sessionOf s' = ⟨.active, 5, 3, 5, 1, 20⟩)) = some true := by decide +kernel
  rw [Option.map_eq_some_iff] at hk
  obtain ⟨s', a, b⟩ := hk
  exact ⟨s', a, of_decide_eq_true b⟩

/-- the session of module 3 is closed with three bytes not sent; module 7 opens one -/
def exLeak : List SIn :=
  exOpened ++ [.putc 1, .putc 2, .putc 3, .rx 0 5 8 0x610 false [2, 3, 0, 0, 0, 0, 0, 0],
    .rx 0 5 8 0x610 false (openMsg 7 0 0 20 0 0 0)]

/-- **C36** is false: the first frame of the session of module 7 carries the bytes written for module 3. -/
theorem C36_counterexample :
    ∃ s : Stack, run exA (boot Node.exMem exInfo) exLeak = some s ∧ sessionOf s = ⟨.active, 5, 7, 5, 0, 20⟩ ∧
      s.tnl.tmp = [1, 2, 3] ∧
      ∃ s', run exA s [.putc 11, .putc 12, .putc 13, .putc 14, .putc 15] = some s' ∧
        okFrames (newLog s s') = [⟨0x613, 8, [1, 2, 3, 11, 12, 13, 14, 15]⟩] := by
  have hk : ((run exA (boot Node.exMem exInfo) exLeak).bind fun s =>
      (run exA s [.putc 11, .putc 12, .putc 13, .putc 14, .putc 15]).map fun s' =>
        decide (sessionOf s = ⟨.active, 5, 7, 5, 0, 20⟩ ∧ s.tnl.tmp = [1, 2, 3] ∧
          okFrames (newLog s s') = [⟨0x613, 8, [1, 2, 3, 11, 12, 13, 14, 15]⟩])) = some true := by decide +kernel
  rw [Option.bind_eq_some_iff] at hk
  obtain ⟨s, a, b⟩ := hk
  rw [Option.map_eq_some_iff] at b
  obtain ⟨s', b, c⟩ := b
  have c := of_decide_eq_true c
  exact ⟨s, a, c.1, c.2.1, s', b, c.2.2⟩

/-- C37: module 6 is not in the table; module 5 is -/
example : (¬ ∃ tp, Addressed exA exS 6 tp) ∧ Addressed exA exS 5 0 := by
  refine ⟨?_, by decide +kernel⟩
  rintro ⟨tp, h, -⟩
  exact absurd (show (List.range exA.maxMod).find? (fun i => decide ((exS.slv.node.rows i).nr = 6)) = none by decide +kernel)
    (by rw [h]; simp)

/-- C60: module 7 cannot stop the transmission of the session of module 3, module 3 can -/
example : (run exA (boot Node.exMem exInfo) (exOpened ++ [.rx 0 5 8 0x610 false [9, 7, 0, 0, 0, 0, 0, 0]])).map
      (fun s => (exApp s).drop 1) = some [] ∧
    (run exA (boot Node.exMem exInfo) (exOpened ++ [.rx 0 5 8 0x610 false [9, 3, 0, 0, 0, 0, 0, 0]])).map
      (fun s => (exApp s).drop 1) = some [.tnlXoff] := by decide +kernel

/-- **C60** is false: module 7 closes the session of module 3 (and may clear its port). -/
theorem C60_counterexample :
    (run exA (boot Node.exMem exInfo) exOpened).map sessionOf = some ⟨.active, 5, 3, 5, 0, 20⟩ ∧
    (run exA (boot Node.exMem exInfo) (exOpened ++ [.rx 0 5 8 0x610 false [8, 7, 0, 0, 0, 0, 0, 0]])).map
      (fun s => (exApp s).drop 1) = some [.tnlClear, .tnlXon] ∧
    (run exA (boot Node.exMem exInfo) (exOpened ++ [.rx 0 5 8 0x610 false [2, 7, 0, 0, 0, 0, 0, 0]])).map
      (fun s => (sessionOf s, (exApp s).drop 1, (exFrames s).drop 1)) =
      some (⟨.free, 125, 125, 125, 0, 20⟩, [.tnlFree], [⟨0x611, 8, [4, 7, 0, 0, 0, 0, 0, 0]⟩]) := by
  decide +kernel

/-- **C61** is false: data are handed to the port before any session and after the session was closed. -/
theorem C61_counterexample :
    (run exA (boot Node.exMem exInfo) (exSetup ++ [.rx 0 6 2 0x612 false [70, 71, 0, 0, 0, 0, 0, 0]])).map
      (fun s => ((sessionOf s).state, exApp s)) = some (.free, [.tnlData [70, 71] 2]) ∧
    (run exA (boot Node.exMem exInfo) (exOpened ++ [.rx 0 5 8 0x610 false [2, 3, 0, 0, 0, 0, 0, 0],
        .rx 0 6 2 0x612 false [70, 71, 0, 0, 0, 0, 0, 0]])).map
      (fun s => ((sessionOf s).state, (exApp s).drop 1)) = some (.free, [.tnlFree, .tnlData [70, 71] 2]) := by
  decide +kernel

/-- **C62** is false: a byte written at tick 1000 is sent alone at tick 1001. -/
theorem C62_counterexample :
    exA.ms2t 50 = 50 ∧
    (run exA (boot Node.exMem exInfo) (exOpened ++ [.process 1000 .active .none, .putc 1, .process 1001 .active .none, .putc 2])).map
      (fun s => ((exFrames s).drop 1, s.tnl.tmp)) = some ([⟨0x613, 1, [1]⟩], [2]) := by
  decide +kernel

end Stack
end LiCan
