import Verif.Props.Answers
import Verif.Props.Reconnect
/-! # Begin and end of transfers, tunnel sessions and searches (C69 - C74) -/
namespace LiCan
namespace Spec

/-- the first message of a start request: the first seven bytes of the name -/
def startMsg1 (code : Byte) (name : List Byte) : List Byte := code :: name

/-- the second message of a download request: last byte of the name, checksum, identifier -/
def dlStartMsg2 (c : Byte) (crc dlId : Nat) : List Byte := 0x14 :: c :: (bytes 2 crc ++ bytes 4 dlId)

/-- the second message of an upload request: last byte of the name, bytes per block, delay -/
def ulStartMsg2 (c : Byte) (m : Nat) (delay a b d : Byte) : List Byte := 0x1E :: c :: (bytes 2 m ++ [delay, a, b, d])

/-- a message that consists of a code only -/
def plainMsg (code : Byte) : List Byte := [code, 0, 0, 0, 0, 0, 0, 0]

/-- a tunnel message naming module `p` -/
def tnlMsg (code p : Byte) : List Byte := [code, p, 0, 0, 0, 0, 0, 0]

/-- a refusal with its reason -/
def tnlDenyMsg (code p : Byte) (e : Nat) : List Byte := [code, p, 0, 0, 0, 0] ++ bytes 2 e

end Spec
namespace Stack
open Spec
open Slave (at8 byteOf)
open Node (exMem)

variable {env : AEnv}

/-- a handler that does nothing but return -/
theorem callHnd_still (s : Stack) (h : Hnd) (f : Nat) (c : Component) (hf : s.x.hnd h = some f)
    (ha : (env.reply s.callN (.hnd h f c)).acts = []) :
    s.callHnd env h c = ({ s with callN := s.callN + 1 }.logCall (.hnd h f c), env.reply s.callN (.hnd h f c)) := by
  unfold callHnd callApp
  rw [hf]
  dsimp only
  rw [ha]
  rfl

theorem byteOf_val (v k : Nat) : (byteOf v k).toNat = v / 256 ^ k % 256 := by
  unfold byteOf; simp

theorem four_bytes (v : Nat) (h : v < 4294967296) (a b c d : Byte) (ha : a = byteOf v 3) (hb : b = byteOf v 2)
    (hc : c = byteOf v 1) (hd : d = byteOf v 0) :
    a.toNat * 16777216 + b.toNat * 65536 + c.toNat * 256 + d.toNat = v := by
  subst ha hb hc hd
  rw [byteOf_val, byteOf_val, byteOf_val, byteOf_val]
  have e3 : 256 ^ 3 = 16777216 := by decide
  have e2 : 256 ^ 2 = 65536 := by decide
  rw [e3, e2, Nat.pow_one, Nat.pow_zero]
  have h1 := Nat.div_add_mod v 256
  have h2 := Nat.div_add_mod (v / 256) 256
  have h3 := Nat.div_add_mod (v / 256 / 256) 256
  have h4 : v / 65536 = v / 256 / 256 := by rw [Nat.div_div_eq_div_mul]
  have h5 : v / 16777216 = v / 256 / 256 / 256 := by rw [Nat.div_div_eq_div_mul, Nat.div_div_eq_div_mul]
  rw [h4, h5, Nat.div_one, Nat.mod_eq_of_lt (a := v / 256 / 256 / 256)]
  · generalize v / 256 / 256 / 256 = p at *
    generalize v / 256 / 256 % 256 = p1 at *
    generalize v / 256 / 256 = q at *
    generalize v / 256 % 256 = p2 at *
    generalize v / 256 = r at *
    generalize v % 256 = p3 at *
    omega
  · rw [← h5]; exact Nat.div_lt_of_lt_mul h

/-! ## C69 -/

/-- **C69** (download).  No transfer is running.  The two messages of a start request call the application once,
with the name, checksum and identifier sent, the module addressed and its type.  If it accepts, nothing is
sent and the transfer is occupied (so every further start request is refused, C43). -/
theorem C69_download_start (s : Stack) (nr tp f : Nat) (ha : Addressed env s nr tp)
    (hf : s.x.hnd .dlStartReq = some f) (hb : s.x.busy = false) (name : List Byte) (h7 : name.length = 7)
    (c : Byte) (crc dlId : Nat) (hc : crc < 65536) (hd : dlId < 4294967296)
    (hr : ∀ k x, (env.reply k (.hnd .dlStartReq f x)).acts = [] ∧ (env.reply k (.hnd .dlStartReq f x)).err = E.ok) :
    ∃ x, logOf (recv env nr s [startMsg1 0x13 name, dlStartMsg2 c crc dlId]) = .app (.hnd .dlStartReq f x) :: logOf s ∧
      x.name = name ++ [c] ∧ x.crc = crc ∧ x.dlId = dlId ∧ x.nr = nr ∧ x.typ = (s.slv.node.rows tp).typ ∧
      (recv env nr s [startMsg1 0x13 name, dlStartMsg2 c crc dlId]).x.busy = true ∧
      (recv env nr s [startMsg1 0x13 name, dlStartMsg2 c crc dlId]).x.comp = x := by
  have e1 : s.asyncRx env nr (startMsg1 0x13 name) = (s.dlStart1 (startMsg1 0x13 name), E.ok) := by
    rw [asyncRx_eq ha]; rfl
  have e1' : s.dlStart1 (startMsg1 0x13 name) = s.setX fun x => { x with comp := { x.comp with name := name ++ x.comp.name.drop 7 } } := by
    unfold dlStart1 startMsg1
    rw [hb, slice_seg name h7]
    rfl
  have ha1 : Addressed env (s.dlStart1 (startMsg1 0x13 name)) nr tp := by rw [e1']; exact ha
  have hrecv : recv env nr s [startMsg1 0x13 name, dlStartMsg2 c crc dlId] =
      ((s.dlStart1 (startMsg1 0x13 name)).dlStart2 env nr tp (dlStartMsg2 c crc dlId)).1 := by
    simp only [recv]
    rw [e1]
    dsimp only
    rw [asyncRx_eq ha1]
    rfl
  rw [hrecv, e1']
  unfold dlStart2
  have hb' : (s.setX fun x => { x with comp := { x.comp with name := name ++ x.comp.name.drop 7 } }).x.busy = false := hb
  rw [hb', if_neg (by decide)]
  dsimp only
  have h1 : at8 (dlStartMsg2 c crc dlId) 2 * 256 + at8 (dlStartMsg2 c crc dlId) 3 = crc := by
    simp only [dlStartMsg2, at8, bytes_two, bytes_four, List.cons_append, List.nil_append, List.getD_cons_succ,
      List.getD_cons_zero, byteOf_val]
    omega
  have h2 : at8 (dlStartMsg2 c crc dlId) 4 * 16777216 + at8 (dlStartMsg2 c crc dlId) 5 * 65536 +
      at8 (dlStartMsg2 c crc dlId) 6 * 256 + at8 (dlStartMsg2 c crc dlId) 7 = dlId := by
    refine four_bytes dlId (by assumption) _ _ _ _ ?_ ?_ ?_ ?_ <;>
      simp only [dlStartMsg2, bytes_two, bytes_four, List.cons_append, List.nil_append, List.getD_cons_succ,
        List.getD_cons_zero]
  have h3 : b8 (dlStartMsg2 c crc dlId) 1 = c := rfl
  have h4 : (name ++ s.x.comp.name.drop 7).take 7 = name := by
    rw [List.take_append_of_le_length (by omega), List.take_of_length_le (by omega)]
  rw [h1, h2, h3]
  rw [callHnd_still _ _ f _ (by exact hf) (hr _ _).1]
  dsimp only
  rw [if_pos (hr _ _).2]
  refine ⟨_, rfl, ?_, rfl, rfl, rfl, rfl, rfl, rfl⟩
  show (name ++ s.x.comp.name.drop 7).take 7 ++ [c] = _
  rw [h4]

/-- **C69** (upload).  The same for an upload; bytes per block and delay are those requested. -/
theorem C69_upload_start (s : Stack) (nr tp f : Nat) (ha : Addressed env s nr tp)
    (hf : s.x.hnd .ulStart = some f) (hb : s.x.busy = false) (name : List Byte) (h7 : name.length = 7)
    (c delay a b d : Byte) (m : Nat) (hm : m < 65536)
    (hr : ∀ k x, (env.reply k (.hnd .ulStart f x)).acts = [] ∧ (env.reply k (.hnd .ulStart f x)).err = E.ok) :
    let s' := recv env nr s [startMsg1 0x1D name, ulStartMsg2 c m delay a b d]
    ∃ x, logOf s' = .app (.hnd .ulStart f x) :: logOf s ∧ x.name = name ++ [c] ∧ x.nr = nr ∧ s'.x.comp = x ∧
      s'.x.busy = true ∧ s'.x.maxBytes = m ∧ s'.x.delay = delay.toNat ∧ s'.x.bytes = 0 ∧ s'.x.objs = 0 := by
  intro s'
  have e1 : s.asyncRx env nr (startMsg1 0x1D name) = (s.ulStart1 nr (startMsg1 0x1D name), E.ok) := by
    rw [asyncRx_eq ha]; rfl
  have e1' : s.ulStart1 nr (startMsg1 0x1D name) =
      s.setX fun x => { x with objs := 0, bytes := 0, comp := { x.comp with nr := nr, name := name ++ x.comp.name.drop 7 } } := by
    unfold ulStart1 startMsg1 setX
    dsimp only
    rw [hb, slice_seg name h7, if_neg (by decide)]
  have ha1 : Addressed env (s.ulStart1 nr (startMsg1 0x1D name)) nr tp := by rw [e1']; exact ha
  have hrecv : s' = ((s.ulStart1 nr (startMsg1 0x1D name)).ulStart2 env nr (ulStartMsg2 c m delay a b d)).1 := by
    show recv _ _ _ _ = _
    simp only [recv]
    rw [e1]
    dsimp only
    rw [asyncRx_eq ha1]
    rfl
  rw [hrecv, e1']
  unfold ulStart2
  have hb' : (s.setX fun x => { x with objs := 0, bytes := 0, comp := { x.comp with nr := nr, name := name ++ x.comp.name.drop 7 } }).x.busy = false := hb
  rw [hb', if_neg (by decide)]
  dsimp only
  have h1 : at8 (ulStartMsg2 c m delay a b d) 2 * 256 + at8 (ulStartMsg2 c m delay a b d) 3 = m := by
    simp only [ulStartMsg2, at8, bytes_two, List.cons_append, List.nil_append, List.getD_cons_succ,
      List.getD_cons_zero, byteOf_val]
    omega
  have h2 : at8 (ulStartMsg2 c m delay a b d) 4 = delay.toNat := by
    simp only [ulStartMsg2, at8, bytes_two, List.cons_append, List.nil_append, List.getD_cons_succ,
      List.getD_cons_zero]
  have h3 : b8 (ulStartMsg2 c m delay a b d) 1 = c := rfl
  have h4 : (name ++ s.x.comp.name.drop 7).take 7 = name := by
    rw [List.take_append_of_le_length (by omega), List.take_of_length_le (by omega)]
  rw [h1, h2, h3]
  rw [callHnd_still _ _ f _ (by exact hf) (hr _ _).1]
  dsimp only
  rw [if_pos (hr _ _).2]
  refine ⟨_, rfl, ?_, rfl, rfl, rfl, rfl, rfl, rfl, rfl⟩
  show (name ++ s.x.comp.name.drop 7).take 7 ++ [c] = _
  rw [h4]

/-- **C69** (download started by the application): accepted, the transfer is occupied. -/
theorem C69_app_start (s : Stack) (c : Component) (f : Nat) (hf : s.x.hnd .dlStart = some f)
    (hr : ∀ k x, (env.reply k (.hnd .dlStart f x)).acts = [] ∧ (env.reply k (.hnd .dlStart f x)).err = E.ok) :
    (s.dlStart env c).2 = E.ok ∧ (s.dlStart env c).1.x.busy = true := by
  unfold dlStart
  dsimp only
  rw [callHnd_still _ _ f _ (by exact hf) (hr _ _).1]
  dsimp only
  rw [if_pos (hr _ _).2]
  exact ⟨rfl, rfl⟩

/-! ## C70 -/

/-- **C70** (download).  An end request calls the application once, with the component of the transfer.  If it
accepts and leaves the rest to the stack, exactly one acknowledge is sent and the transfer is over; if it
wants to acknowledge later, nothing is sent and the transfer goes on until it does. -/
theorem C70_download_end (s : Stack) (nr tp f : Nat) (ha : Addressed env s nr tp) (h1 : 1 ≤ nr) (h2 : nr < 16000)
    (hf : s.x.hnd .dlEnd = some f) (rest : List Byte)
    (hr : (env.reply s.callN (.hnd .dlEnd f s.x.comp)).acts = [] ∧ (env.reply s.callN (.hnd .dlEnd f s.x.comp)).err = E.ok) :
    let s' := (s.asyncRx env nr (0x17 :: rest)).1
    if (env.reply s.callN (.hnd .dlEnd f s.x.comp)).stackEnd then
      Idle s' ∧ ∃ ok, logOf s' = .frame (ctrlFrame nr (plainMsg 0x1B)) ok :: .app (.hnd .dlEnd f s.x.comp) :: logOf s
    else s'.x = s.x ∧ logOf s' = .app (.hnd .dlEnd f s.x.comp) :: logOf s ∧
      ∀ t : Stack, Idle (t.act env (.endAckn nr)) ∧
        ∃ ok, logOf (t.act env (.endAckn nr)) = .frame (ctrlFrame nr (plainMsg 0x1B)) ok :: logOf t := by
  intro s'
  have hs' : s' = (s.dlEnd env nr).1 := by
    show (s.asyncRx env nr _).1 = _
    rw [asyncRx_eq ha]
    rfl
  have hend : ∀ t : Stack, Idle (t.endAckn env nr) ∧
      logOf (t.endAckn env nr) = .frame (ctrlFrame nr (plainMsg 0x1B)) (env.sendOk t.slv.node.sendN) :: logOf t := by
    intro t
    refine ⟨⟨rfl, rfl⟩, ?_⟩
    exact ctrlTx_log env (t.setX fun x => { x with comp := { x.comp with name := noName } }) nr (plainMsg 0x1B) h1 h2
  rw [hs']
  unfold dlEnd
  rw [callHnd_still _ _ f _ hf hr.1]
  dsimp only
  rw [if_pos hr.2]
  split
  · obtain ⟨a, b⟩ := hend ({ s with callN := s.callN + 1 }.logCall (.hnd .dlEnd f s.x.comp))
    exact ⟨a, _, b⟩
  · refine ⟨rfl, rfl, ?_⟩
    intro t
    exact ⟨(hend t).1, _, (hend t).2⟩

/-- **C70** (upload).  The acknowledge of the end of an upload and a termination by the master end the
transfer; nothing is sent and the application is not called. -/
theorem C70_upload_end (s : Stack) (nr tp : Nat) (ha : Addressed env s nr tp) (code : Byte) (rest : List Byte)
    (hc : code = 0x1B ∨ code = 0x1C) :
    let s' := (s.asyncRx env nr (code :: rest)).1
    s'.x.busy = false ∧ logOf s' = logOf s := by
  intro s'
  have hs' : s' = s.ulStop := by
    show (s.asyncRx env nr _).1 = _
    rw [asyncRx_eq ha]
    rcases hc with rfl | rfl <;> rfl
  rw [hs']
  exact ⟨rfl, rfl⟩

/-- **C70** (upload).  The acknowledge of a block is handed to the application once; the stack itself sends
nothing. -/
theorem C70_upload_block (s : Stack) (nr tp f : Nat) (ha : Addressed env s nr tp) (hf : s.x.hnd .ulAck = some f)
    (rest : List Byte) (hr : (env.reply s.callN (.hnd .ulAck f s.x.comp)).acts = []) :
    let s' := (s.asyncRx env nr (0x1A :: rest)).1
    s'.x = s.x ∧ logOf s' = .app (.hnd .ulAck f s.x.comp) :: logOf s := by
  intro s'
  have hs' : s' = (s.ulBlockAckn env).1 := by
    show (s.asyncRx env nr _).1 = _
    rw [asyncRx_eq ha]
    rfl
  rw [hs']
  unfold ulBlockAckn
  rw [callHnd_still _ _ f _ hf hr]
  exact ⟨rfl, rfl⟩

/-! ## C71 -/

theorem port_log (s : Stack) (c : ACall) : ∃ l, logOf (s.callPort env c).1 = l ++ .app c :: logOf s := by
  obtain ⟨l, k, hl, -⟩ := (Quiet.acts env (env.reply s.callN c).acts ({ s with callN := s.callN + 1 }.logCall c)).node
  refine ⟨l, ?_⟩
  have := congrArg Node.log hl
  exact this

theorem denyMsg (s : Stack) (code p : Byte) (nr : Nat) (e : Err) (h1 : 1 ≤ nr) (h2 : nr < 16000) :
    logOf (s.tnlDeny env code p.toNat nr e) = .frame (ctrlFrame nr (tnlDenyMsg code p e.toNat)) (env.sendOk s.slv.node.sendN) :: logOf s := by
  unfold tnlDeny tnlDenyMsg
  rw [bytes2, byteOf_at]
  exact ctrlTx_log env s nr _ h1 h2

/-- **C71** (close).  A close request asks the port.  If it agrees, the session is closed and the close is
acknowledged; if not, the session stays as it is and the request is denied with the reason. -/
theorem C71_close (s : Stack) (nr tp : Nat) (p : Byte) (rest : List Byte) (ha : Addressed env s nr tp) (h1 : 1 ≤ nr) (h2 : nr < 16000) :
    let s' := (s.asyncRx env nr (0x02 :: p :: rest)).1
    let e := (env.reply s.callN .tnlFree).err
    if e = E.ok then
      s'.tnl.state = .free ∧ ∃ ok l, logOf s' = .frame (ctrlFrame nr (tnlMsg 0x04 p)) ok :: (l ++ .app .tnlFree :: logOf s)
    else
      sessionOf s' = sessionOf s ∧
        ∃ ok l, logOf s' = .frame (ctrlFrame nr (tnlDenyMsg 0x06 p e.toNat)) ok :: (l ++ .app .tnlFree :: logOf s) := by
  intro s' e
  have hs' : s' = (s.tnlCloseReq env nr (0x02 :: p :: rest)).1 := by
    show (s.asyncRx env nr _).1 = _
    rw [asyncRx_eq ha]
    rfl
  obtain ⟨l, hl⟩ := port_log (env := env) s .tnlFree
  have hq := Quiet.callPort env s .tnlFree
  have he : (s.callPort env .tnlFree).2 = e := rfl
  have hp : at8 (0x02 :: p :: rest) 1 = p.toNat := rfl
  rw [hs']
  unfold tnlCloseReq
  generalize s.callPort env .tnlFree = r at hl hq he ⊢
  dsimp only
  rw [he, hp]
  by_cases hk : e = E.ok
  · rw [if_pos hk, if_pos hk]
    refine ⟨rfl, env.sendOk r.1.slv.node.sendN, l, ?_⟩
    unfold tnlClose tnlMsg
    rw [byteOf_at]
    refine (ctrlTx_log env _ nr _ h1 h2).trans (congrArg _ ?_)
    exact hl
  · rw [if_neg hk, if_neg hk]
    exact ⟨Quiet.sess (hq.trans (Quiet.ctrlTx env _ _ _)), _, l, (denyMsg r.1 0x06 p nr e h1 h2).trans (congrArg _ hl)⟩

/-- **C71** (close by the module).  A shutdown of an active session sends a close request to the partner; an
acknowledge of the partner frees the port and closes the session, a denial makes it active again. -/
theorem C71_shutdown (s : Stack) (p : Byte) (tp : Nat) (ha : Addressed env s s.tnl.own tp) (h1 : 1 ≤ s.tnl.own) (h2 : s.tnl.own < 16000)
    (hp : s.tnl.prim = p.toNat) (hs : s.tnl.state = .active) (rest : List Byte) :
    let s1 := (s.tnlShutdown env).1
    sessionOf s1 = { sessionOf s with state := .shutdown } ∧
    (∃ ok, logOf s1 = .frame (ctrlFrame s.tnl.own (tnlMsg 0x02 p)) ok :: logOf s) ∧
    ((s1.asyncRx env s.tnl.own (0x04 :: p :: rest)).1.tnl.state = .free ∧
      ∃ l, logOf (s1.asyncRx env s.tnl.own (0x04 :: p :: rest)).1 = l ++ .app .tnlFree :: logOf s1) ∧
    (sessionOf (s1.asyncRx env s.tnl.own (0x06 :: p :: rest)).1 = sessionOf s ∧
      logOf (s1.asyncRx env s.tnl.own (0x06 :: p :: rest)).1 = logOf s1) := by
  intro s1
  have hs1 : s1 = (s.setT fun t => { t with state := .shutdown }).tnlClose env 0x02 s.tnl.prim s.tnl.own := by
    show (s.tnlShutdown env).1 = _
    unfold tnlShutdown
    rw [if_neg (not_not_intro hs)]
    rfl
  have hses : sessionOf s1 = { sessionOf s with state := .shutdown } := by rw [hs1]; rfl
  have ht : s1.tnl = { s.tnl with state := .shutdown } := by rw [hs1]; rfl
  have ha1 : Addressed env s1 s.tnl.own tp := by rw [hs1]; exact ha
  refine ⟨hses, ?_, ?_, ?_⟩
  · rw [hs1, hp]
    unfold tnlClose tnlMsg
    rw [byteOf_at]
    exact ⟨_, ctrlTx_log env _ s.tnl.own _ h1 h2⟩
  · rw [asyncRx_eq ha1]
    have : s1.command env s.tnl.own tp (0x04 :: p :: rest) = s1.tnlCloseAck env s.tnl.own (0x04 :: p :: rest) := rfl
    rw [this]
    unfold tnlCloseAck
    rw [if_pos ⟨by rw [ht], by rw [ht]; exact hp, by rw [ht]⟩]
    obtain ⟨l, hl⟩ := port_log (env := env) s1 .tnlFree
    exact ⟨rfl, l, hl⟩
  · rw [asyncRx_eq ha1]
    have : s1.command env s.tnl.own tp (0x06 :: p :: rest) = (s1.tnlCloseDeny s.tnl.own (0x06 :: p :: rest), E.ok) := rfl
    rw [this]
    unfold tnlCloseDeny
    rw [if_pos ⟨by rw [ht], by rw [ht]; exact hp, by rw [ht]⟩]
    refine ⟨?_, rfl⟩
    show sessionOf (s1.setT fun t => { t with state := .active }) = _
    unfold sessionOf setT
    dsimp only
    rw [ht]
    dsimp only
    rw [hs]

/-! ## C72 -/

/-- **C72**.  After a download that needed a restart (mode 3 in the transfer info) the start of the stack
acknowledges the end of the download exactly once: on behalf of the module of that download, after which the
info says "application" and is consistent, so that the next start acknowledges nothing. -/
theorem C72_restart (s : Stack) (nr : Nat) (hm : s.info.d.mode = 3) (hn : s.info.d.comp.nr = nr)
    (h1 : 1 ≤ nr) (h2 : nr < 16000) :
    let s' := s.startAck env
    Idle s' ∧ s'.info.d = { s.info.d with mode := 4 } ∧ s'.info.checkCrc env.crc = true ∧
    (∃ ok, logOf s' = .frame (ctrlFrame nr (plainMsg 0x1B)) ok :: logOf s) ∧ s'.startAck env = s' := by
  intro s'
  have hs' : s' = { s.endAckn env nr with info := s.info.setMode env.crc 4 } := by
    show s.startAck env = _
    unfold startAck
    rw [if_pos hm]
    dsimp only
    rw [hn]
    rfl
  have hmode : s'.info.d.mode = 4 := by rw [hs']; rfl
  refine ⟨by rw [hs']; exact ⟨rfl, rfl⟩, by rw [hs']; rfl, by rw [hs']; unfold XInfo.setMode XInfo.updateCrc XInfo.checkCrc; simp, ?_, ?_⟩
  · rw [hs']
    exact ⟨_, ctrlTx_log env (s.setX fun x => { x with comp := { x.comp with name := noName } }) nr (plainMsg 0x1B) h1 h2⟩
  · show (s'.startAck env) = s'
    unfold startAck
    rw [if_neg (by rw [hmode]; decide)]

/-- **C72**, the whole of `lcsa_start`: frames sent by it are that acknowledge, or none. -/
theorem C72_start (s : Stack) (now : Nat) (h1 : 1 ≤ s.info.d.comp.nr) (h2 : s.info.d.comp.nr < 16000) :
    let r := s.start env now
    ∃ l : List Ev, (∀ e ∈ l, ∃ c, e = .app c) ∧
      if r.2 = E.ok ∧ s.info.d.mode = 3 then
        r.1.info.d.mode = 4 ∧ ∃ ok, logOf r.1 = .frame (ctrlFrame s.info.d.comp.nr (plainMsg 0x1B)) ok :: (l ++ logOf s)
      else r.1.info.d.mode = s.info.d.mode ∧ logOf r.1 = l ++ logOf s := by
  intro r
  -- what holds before the acknowledge
  let P : Stack → Prop := fun t => t.info.d.mode = s.info.d.mode ∧ t.info.d.comp = s.info.d.comp ∧
    ∃ l : List Ev, (∀ e ∈ l, ∃ c, e = .app c) ∧ logOf t = l ++ logOf s
  have hbaud : ∀ (t : Stack) (b : Nat), P t → P (t.baudRate env b).1 := by
    intro t b ⟨h1, h2, h3⟩
    refine ⟨?_, ?_, h3⟩
    · show (if _ then t.info else t.info.setBaud env.crc _).d.mode = _
      split <;> exact h1
    · show (if _ then t.info else t.info.setBaud env.crc _).d.comp = _
      split <;> exact h2
  have hmode : ∀ (t : Stack) (m : Mode), P t → P (t.nodeMode env m).1 := fun t m h => h
  have hsu : ∀ t : Stack, P t → P (t.rcStartup env now) := by
    intro t h
    unfold rcStartup
    split
    · have hn : P (t.notify t.rc.suStart .suStart) := by
        unfold notify
        split
        · exact h
        · obtain ⟨h1, h2, l, h3, h4⟩ := h
          refine ⟨h1, h2, _ :: l, ?_, congrArg (List.cons _) h4⟩
          intro e he
          rcases List.mem_cons.1 he with e1 | e1
          · exact ⟨_, e1⟩
          · exact h3 e e1
      generalize t.notify t.rc.suStart .suStart = u at hn ⊢
      exact hn
    · exact h
  have hs0 : P s := ⟨rfl, rfl, [], ⟨fun e he => (nomatch he), rfl⟩⟩
  have key : ∀ q : Stack × Err, P q.1 → r = (if q.2 = E.ok then ({ q.1.startAck env with lcsa := .running }, E.ok) else q) →
      ∃ l : List Ev, (∀ e ∈ l, ∃ c, e = .app c) ∧
      if r.2 = E.ok ∧ s.info.d.mode = 3 then
        r.1.info.d.mode = 4 ∧ ∃ ok, logOf r.1 = .frame (ctrlFrame s.info.d.comp.nr (plainMsg 0x1B)) ok :: (l ++ logOf s)
      else r.1.info.d.mode = s.info.d.mode ∧ logOf r.1 = l ++ logOf s := by
    intro q ⟨q1, q2, l, q3, q4⟩ hr
    refine ⟨l, q3, ?_⟩
    rw [hr]
    by_cases hq : q.2 = E.ok
    · rw [if_pos hq]
      by_cases hm : s.info.d.mode = 3
      · rw [if_pos ⟨rfl, hm⟩]
        obtain ⟨-, a, -, ⟨ok, b⟩, -⟩ := C72_restart (env := env) q.1 s.info.d.comp.nr (q1.trans hm) (by rw [q2]) h1 h2
        refine ⟨?_, ok, b.trans (by rw [q4])⟩
        show (q.1.startAck env).info.d.mode = 4
        rw [a]
      · rw [if_neg (fun h => hm h.2)]
        have : q.1.startAck env = q.1 := by
          unfold startAck
          rw [if_neg (by rw [q1]; exact hm)]
        rw [this]
        exact ⟨q1, q4⟩
    · rw [if_neg hq, if_neg (fun h => hq h.1)]
      exact ⟨q1, q4⟩
  refine key _ ?_ rfl
  split
  · dsimp only
    have h0 : P (s.setR fun c => { c with state := .off }) := hs0
    have h1 := hbaud _ (((s.setR fun c => { c with state := .off }).nodeMode env .stopped).1).slv.link.startup (hmode _ .stopped h0)
    split
    · exact h1
    · exact h1
  · dsimp only
    have h0 : P (s.setR fun c => { c with state := .startup }) := hs0
    exact hsu _ (hbaud _ (((s.setR fun c => { c with state := .startup }).nodeMode env .stopped).1).slv.link.startup (hmode _ .stopped h0))

/-! ## C73 -/

theorem msg_ends {s : Stack} (hi : RInv env s) (hs : s.rc.state = .on ∨ s.rc.state = .startup) (hp : s.rc.pending = .msg)
    (now : Nat) (bus : BusState) (lec : Lec) : (s.process env now bus lec).rc.state = .off := by
  have hsr : Searching s := hs.elim (fun h => .inr (.inl h)) .inl
  obtain ⟨p, hp'⟩ := Slave.trigger_eq env.toEnv s.slv now
  have hk : Keep s { s with slv := { s.slv with sync := { s.slv.sync with periode := p } } } := ⟨rfl, rfl⟩
  unfold Stack.process
  rw [hp']
  dsimp only
  generalize ({ s with slv := { s.slv with sync := { s.slv.sync with periode := p } } } : Stack) = t at hk ⊢
  have ho : ¬ t.rc.state = .off := by rw [hk.1]; intro e; exact not_searching e hsr
  rw [(Keep.processTx env _ now).1]
  unfold Stack.hwError
  dsimp only
  rw [if_neg (c := (bus ≠ .active ∨ lec ≠ .none) ∧ t.rc.state = .off) (fun e => ho e.2), if_pos ho]
  unfold Stack.rcProcess
  rw [if_neg (by rw [hk.1, hi.proc hsr]; decide)]
  rcases hs with h | h
  · rw [hk.1, h]
    dsimp only
    rw [hp, if_pos rfl, (rcOff_spec env _ now).1]
  · rw [hk.1, h]
    dsimp only
    rw [hp, if_pos rfl, (rcOff_spec env _ now).1]

/-- **C73**.  A frame received during a search ends it: at the latest after `CAN_RECONNECT_IDLE_CNT` + 2 further
calls of `lcsa_process`, whatever the driver reports in them, there was a moment without a search. -/
theorem C73_frame_ends (mem : Nat → List Byte) (info : XInfo) (is0 : List SIn) (s : Stack) (hm : ∀ i ∈ is0, noMode i = true)
    (hr : (boot mem info).run env is0 = some s) (hs : Searching s) (hmax : env.idleMax + 1 < 65536)
    (now obj dlc id : Nat) (ext : Bool) (data : List Byte) (cs : List Call) (hl : env.idleMax + 2 ≤ cs.length) :
    ∃ k ≤ env.idleMax + 2, ∃ s', s.run env (.rx now obj dlc id ext data :: (cs.take k).map Call.sin) = some s' ∧ ¬ Searching s' := by
  have hi := RInv.run is0 (RInv.boot mem info) hm hr
  have e : s.step env (.rx now obj dlc id ext data) = some (s.setR fun c => { c with pending := .msg }) :=
    rx_search env hs now obj dlc id ext data
  have hi1 : RInv env (s.setR fun c => { c with pending := .msg }) := ⟨hi.idx, hi.act, hi.listens, hi.proc, hi.rate, hi.wait⟩
  have hm1 : (s.setR fun c => { c with pending := .msg }).rc.pending = .msg := rfl
  have hs1 : Searching (s.setR fun c => { c with pending := .msg }) := hs
  have run1 : ∀ ys, s.run env (.rx now obj dlc id ext data :: ys) = (s.setR fun c => { c with pending := .msg }).run env ys := by
    intro ys
    simp only [Stack.run, e, Option.bind_some]
  simp only [run1]
  generalize (s.setR fun c => { c with pending := .msg }) = t at hi1 hm1 hs1
  -- one call in the listening part
  have fin : ∀ {u : Stack} {c : Call} {cs : List Call}, RInv env u → u.rc.pending = .msg → (u.rc.state = .on ∨ u.rc.state = .startup) →
      ∃ s', u.run env (((c :: cs).take 1).map Call.sin) = some s' ∧ ¬ Searching s' := by
    intro u c cs h1 h2 h3
    exact ⟨_, rfl, not_searching (msg_ends h1 h3 h2 c.now c.bus c.lec)⟩
  match cs, hl with
  | c :: cs, hl =>
    rcases hs1 with h | h | h
    · obtain ⟨s', a, b⟩ := fin (c := c) (cs := cs) hi1 hm1 (.inr h)
      exact ⟨1, by omega, s', a, b⟩
    · obtain ⟨s', a, b⟩ := fin (c := c) (cs := cs) hi1 hm1 (.inl h)
      exact ⟨1, by omega, s', a, b⟩
    · have hw := hi1.wait h
      have hlen : ((c :: cs).take (env.idleMax + 1 - t.rc.idle)).length = env.idleMax + 1 - t.rc.idle := by
        rw [List.length_take]; omega
      obtain ⟨u, a, -, b⟩ := idle_run (env := env) hmax ((c :: cs).take (env.idleMax + 1 - t.rc.idle)) h
        (hi1.proc (.inr (.inr h))) hw (by omega)
      have hu : RInv env u := RInv.run _ hi1 (by
        intro i hin
        obtain ⟨x, -, rfl⟩ := List.mem_map.1 hin
        rfl) a
      obtain ⟨d, ds, hd⟩ : ∃ d ds, (c :: cs).drop (env.idleMax + 1 - t.rc.idle) = d :: ds := by
        match hx : (c :: cs).drop (env.idleMax + 1 - t.rc.idle) with
        | d :: ds => exact ⟨d, ds, rfl⟩
        | [] =>
          have := congrArg List.length hx
          rw [List.length_drop] at this
          simp only [List.length_nil] at this
          omega
      obtain ⟨s', a', b'⟩ := fin (u := u) (c := d) (cs := ds) hu (by rw [b]; exact hm1) (.inl (by rw [b]))
      refine ⟨env.idleMax + 1 - t.rc.idle + 1, by omega, s', ?_, b'⟩
      rw [List.take_add, List.map_append, run_app, a, hd]
      exact a'

/-! ## C74 -/

/-- **C74**, the part that holds.  A version request (short name) that the application answers leaves buffer,
counters, component and state of a transfer as they are. -/
theorem C74_partial (s : Stack) (nr tp f : Nat) (ha : Addressed env s nr tp) (hf : s.x.hnd .dlVersion = some f) (rest : List Byte)
    (hr : ∀ k c, (env.reply k (.hnd .dlVersion f c)).err = E.ok ∧ ∃ g, (env.reply k (.hnd .dlVersion f c)).acts = [.editVer g]) :
    ∃ v, (s.asyncRx env nr (0x10 :: rest)).1.x = { s.x with vcomp := v } := by
  rw [asyncRx_eq ha]
  have e : s.command env nr tp (0x10 :: rest) = s.versionShort env nr (0x10 :: rest) := rfl
  rw [e]
  unfold versionShort
  generalize hv : (s.setX fun x => { x with vcomp := { x.vcomp with index := b8 (0x10 :: rest) 1, name := shortName (0x10 :: rest) } }) = t
  have ht : ∃ v, t.x = { s.x with vcomp := v } := by subst hv; exact ⟨_, rfl⟩
  have hft : t.x.hnd .dlVersion = some f := by subst hv; exact hf
  clear hv
  unfold versionPre
  simp only [hft, reduceCtorEq, if_false]
  have hh : (t.setX fun x => { x with vcomp := { x.vcomp with nr := nr } }).x.hnd .dlVersion = some f := hft
  have hu : ∃ v, (t.setX fun x => { x with vcomp := { x.vcomp with nr := nr } }).x = { s.x with vcomp := v } := by
    obtain ⟨v, hv⟩ := ht
    refine ⟨{ v with nr := nr }, ?_⟩
    show { t.x with vcomp := { t.x.vcomp with nr := nr } } = _
    rw [hv]
  generalize (t.setX fun x => { x with vcomp := { x.vcomp with nr := nr } }) = u at hh hu ⊢
  obtain ⟨g, hg⟩ := (hr u.callN u.x.vcomp).2
  unfold callHnd callApp
  rw [hh]
  dsimp only
  rw [(hr u.callN u.x.vcomp).1, hg, if_pos rfl]
  obtain ⟨v, hv⟩ := hu
  split
  · refine ⟨{ g u.x.vcomp with name := noName }, ?_⟩
    show { u.x with vcomp := { g u.x.vcomp with name := noName } } = _
    rw [hv]
  · refine ⟨{ g u.x.vcomp with name := noName }, ?_⟩
    show { u.x with vcomp := { g u.x.vcomp with name := noName } } = _
    rw [hv]

/-! ## Cases -/

/-- C69: download and upload of "COMPONEN" -/
example : Addressed exA exS 5 0 ∧ exS.x.hnd .dlStartReq = some 12 ∧ exS.x.hnd .ulStart = some 16 ∧ exS.x.hnd .dlStart = some 10 ∧
    exS.x.busy = false ∧
    [startMsg1 0x13 [67, 79, 77, 80, 79, 78, 69], dlStartMsg2 78 0x0102 0x03040506] = [exStart1, exStart2] ∧
    exApp (recv exA 5 exS [startMsg1 0x1D [67, 79, 77, 80, 79, 78, 69], ulStartMsg2 78 210 5 0 0 0]) =
      [.hnd .ulStart 16 ⟨5, [67, 79, 77, 80, 79, 78, 69, 78], 0, 0, 0, []⟩] ∧
    (recv exA 5 exS [startMsg1 0x1D [67, 79, 77, 80, 79, 78, 69], ulStartMsg2 78 210 5 0 0 0]).x.maxBytes = 210 := by decide +kernel

/-- the replies asked for in C69 -/
example : ∀ k x, (exA.reply k (.hnd .ulStart 16 x)).acts = [] ∧ (exA.reply k (.hnd .ulStart 16 x)).err = E.ok := fun _ _ => ⟨rfl, rfl⟩

/-- the application acknowledges the end of a download later -/
def exA4 : AEnv := { exA with reply := fun _ _ => { stackEnd := false } }

/-- C70: both replies to an end request -/
example : exS.x.hnd .dlEnd = some 14 ∧ exS.x.hnd .ulAck = some 17 ∧ (exA.reply 1 (.hnd .dlEnd 14 exS.x.comp)).stackEnd = true ∧
    exFrames (recv exA 5 exS [exStart1, exStart2, plainMsg 0x17]) = [⟨0x611, 8, [0x1B, 0, 0, 0, 0, 0, 0, 0]⟩] ∧
    (recv exA 5 exS [exStart1, exStart2, plainMsg 0x17]).x.busy = false ∧
    Addressed exA4 exS 5 0 ∧ exFrames (recv exA4 5 exS [exStart1, exStart2, plainMsg 0x17]) = [] ∧
    (recv exA4 5 exS [exStart1, exStart2, plainMsg 0x17]).x.busy = true := by decide +kernel

/-- C71: module 3 has a session with module 5, which shuts it down -/
example : (run exA (boot Node.exMem exInfo) exOpened).map (fun s => decide (Addressed exA s s.tnl.own 0 ∧ s.tnl.state = .active ∧
      s.tnl.own = 5 ∧ s.tnl.prim = 3 ∧ (exFrames (s.tnlShutdown exA).1).drop 1 = [⟨0x611, 8, [2, 3, 0, 0, 0, 0, 0, 0]⟩])) = some true := by
  decide +kernel

/-- C72: the info of a download that needed a restart -/
example :
    let s : Stack := { exS with info := { exS.info with d := { exS.info.d with mode := 3, comp := { nr := 9 } } } }
    s.info.d.mode = 3 ∧ (s.start exA 10).2 = E.ok ∧ exFrames (s.start exA 10).1 = [⟨0x621, 8, [0x1B, 0, 0, 0, 0, 0, 0, 0]⟩] ∧
    (s.start exA 10).1.info.d.mode = 4 := by decide +kernel

/-- C73: a frame in an online search -/
example : (∀ i ∈ exOn, noMode i = true) ∧ run exA (boot exMem exInfo) exOn = some exOnS ∧ Searching exOnS ∧ exA.idleMax + 1 < 65536 ∧
    exA.idleMax + 2 ≤ (List.replicate 10 (⟨901, .active, .form⟩ : Call)).length :=
  ⟨by decide, exOn_run, by decide +kernel, by decide +kernel, by decide +kernel⟩

/-- the application knows no component for a version request -/
def exA5 : AEnv := { exA with reply := fun _ c => match c with
  | .hnd .dlVersion _ _ => { err := 0x1234#16 }
  | .hnd .dlBlock _ _ => { acts := List.replicate 14 .get }
  | _ => {} }

/-- C74: a version request during a download -/
example : Addressed exA3 (recv exA3 5 exS [exStart1, exStart2]) 9 1 ∧
    (recv exA3 5 exS [exStart1, exStart2]).x.hnd .dlVersion = some 11 ∧ (recv exA3 5 exS [exStart1, exStart2]).x.busy = true := by
  decide +kernel

/-- **C74** is false.  Module 5 receives a download.  (1) A version request for module 9 that the application refuses
ends it.  (2) A data message for module 9 enters the data of module 5: the application gets them in the
block of module 5, which is acknowledged.  (3) An info request for module 9 erases the name of the component. -/
theorem C74_counterexample :
    (let s := recv exA5 5 exS [exStart1, exStart2]
     Addressed exA5 s 9 1 ∧ s.x.busy = true ∧ (s.asyncRx exA5 9 (0x10 :: 7 :: packName exName)).1.x.busy = false) ∧
    (let s := recv exA 5 (recv exA 9 (recv exA 5 exS [exStart1, exStart2]) [dataMsg [91, 92, 93, 94, 95, 96, 97]])
        [dataMsg [1, 2, 3, 4, 5, 6, 7], blockEndMsg 14 2]
     exFrames s = [ctrlFrame 5 (plainMsg 0x1A)] ∧
     (exApp s).drop 2 = [91, 92, 93, 94, 95, 96, 97, 1, 2, 3, 4, 5, 6, 7].map fun b => .got (some b)) ∧
    (let s := recv exA 5 exS [exStart1, exStart2]
     s.x.comp.name = [67, 79, 77, 80, 79, 78, 69, 78] ∧
     (s.asyncRx exA 9 (0x50 :: 8 :: packName exName)).1.x.comp.name = List.replicate 8 0 ∧
     (s.asyncRx exA 9 (0x50 :: 8 :: packName exName)).1.x.comp.nr = 9) := by
  decide +kernel

end Stack
end LiCan
