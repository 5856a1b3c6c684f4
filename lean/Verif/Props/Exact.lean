import Verif.Props.Tunnel
import Verif.Props.BlockExact
/-! # C43, C60, C62, exact: what happens where the claims fail -/
namespace LiCan
namespace Spec

/-- the answer to a request to close a session: granted or, with the number of the port, denied -/
def closeAnswer (p : Byte) (e : Err) : List Byte :=
  if e = E.ok then [0x04, p, 0, 0, 0, 0, 0, 0] else [0x06, p, 0, 0, 0, 0] ++ bytes 2 e.toNat

end Spec
namespace Stack
open Spec
open Slave (at8 byteOf)

variable {env : AEnv}

/-! ## C43 -/

/-- **C43**, exact: what a refused start request leaves behind.  Only the name of the component and the mark of a transfer in progress
are gone; the bytes received, their number, the rest of the component, the tunnel and the queue are as before. -/
theorem C43_exact (s : Stack) (nr tp : Nat) (src : List Byte) (ha : Addressed env s nr tp) (hb : s.x.busy = true)
    (hc : at8 src 0 = 0x14 ∨ at8 src 0 = 0x1E) :
    let s' := (s.asyncRx env nr src).1
    s'.x = { s.x with busy := false, comp := { s.x.comp with name := [0, 0, 0, 0, 0, 0, 0, 0] } } ∧
    s'.tnl = s.tnl ∧ s'.q = s.q ∧ s'.callN = s.callN ∧ Addressed env s' nr tp := by
  have e : (s.asyncRx env nr src).1 = s.termination env nr E.dloadInProgress := by
    rw [asyncRx_eq ha]
    unfold command
    rcases hc with h | h <;> rw [h] <;> simp only [dlStart2, ulStart2, hb, if_true]
  rw [e]
  exact ⟨rfl, rfl, rfl, rfl, ha⟩

/-- **C43**, exact: the running download goes on all the same.  The next block is handed to the application as if nothing had happened,
and acknowledged if the application agrees - but without the name of the component. -/
theorem C43_goes_on (s : Stack) (nr tp f n m : Nat) (src : List Byte) (c : List Byte) (segs : List (List Byte)) (rest : List Act)
    (ha : Addressed env s nr tp) (hb : s.x.busy = true) (hc : at8 src 0 = 0x14 ∨ at8 src 0 = 0x1E)
    (h1 : 1 ≤ nr) (h2 : nr < 16000) (hf : s.x.hnd .dlBlock = some f)
    (hB : env.bufSize < 65536) (h7 : ∀ g ∈ segs, g.length = 7) (hh : XBuf.Holds env.bufSize s.x.buf c)
    (ho : s.x.objs = 0) (hy : s.x.bytes = 0) (hl : c.length + segs.flatten.length ≤ env.bufSize) (hn : n < 65536)
    (hr : (env.reply s.callN (.hnd .dlBlock f { s.x.comp with name := [0, 0, 0, 0, 0, 0, 0, 0] })).acts = List.replicate m .get ++ rest) :
    let r := env.reply s.callN (.hnd .dlBlock f { s.x.comp with name := [0, 0, 0, 0, 0, 0, 0, 0] })
    ∃ l ok ok', logOf (recv env nr s (src :: (segs.map dataMsg ++ [blockEndMsg n segs.length]))) =
      .frame (ctrlFrame nr (if r.err = E.ok then [0x1A, 0, 0, 0, 0, 0, 0, 0] else termMsg r.err.toNat)) ok ::
      l ++ (gots (blockFound c segs.flatten n) m).reverse ++
        .app (.hnd .dlBlock f { s.x.comp with name := [0, 0, 0, 0, 0, 0, 0, 0] }) ::
        .frame (ctrlFrame nr (termMsg 0x5035)) ok' :: logOf s := by
  obtain ⟨ex, -, -, en, ea⟩ := C43_exact s nr tp src ha hb hc
  obtain ⟨-, ⟨ok', hlog⟩, -⟩ := (C43_refused_partial env s nr tp src ha hb h1 h2).2 hc
  intro r
  show ∃ l ok ok', logOf (recv env nr (s.asyncRx env nr src).1 (segs.map dataMsg ++ [blockEndMsg n segs.length])) = _
  generalize (s.asyncRx env nr src).1 = s1 at ex en ea hlog
  have k := C42_exact env s1 nr tp f n m c segs rest ea h1 h2 (by rw [ex]; exact hf) hB h7 (by rw [ex]; exact hh) (by rw [ex]; exact ho)
    (by rw [ex]; exact hy) hl hn (by rw [ex, en]; exact hr)
  obtain ⟨l, ok, k⟩ := k
  have ec : s1.x.comp = { s.x.comp with name := [0, 0, 0, 0, 0, 0, 0, 0] } := by rw [ex]
  rw [ec, en, hlog] at k
  exact ⟨l, ok, ok', k⟩

/-- a download of "COMPONEN" is running, a second start is refused, a block of one object follows: the application reads all its bytes -/
example : exFrames (recv exA 5 exS [exStart1, exStart2, exStart2, dataMsg [1, 2, 3, 4, 5, 6, 7], blockEndMsg 7 1]) =
      [ctrlFrame 5 (termMsg 0x5035), ctrlFrame 5 [0x1A, 0, 0, 0, 0, 0, 0, 0]] ∧
    (exApp (recv exA 5 exS [exStart1, exStart2, exStart2, dataMsg [1, 2, 3, 4, 5, 6, 7], blockEndMsg 7 1])).drop 1 =
      .hnd .dlBlock 13 ⟨5, [0, 0, 0, 0, 0, 0, 0, 0], 0x0102, 0x03040506, 0, [77, 68, 65]⟩ ::
        ([1, 2, 3, 4, 5, 6, 7].map fun b => .got (some b)) ++ List.replicate 7 (.got none) := by decide +kernel

/-! ## C60 -/

/-- **C60**, exact: a request to close, whoever sends it and whether or not there is a session: the port decides alone.  If it agrees
the session is over, whosever it was, and the sender gets the acknowledge; otherwise nothing changes and the sender gets the denial. -/
theorem C60_close (s : Stack) (nr tp : Nat) (src : List Byte) (ha : Addressed env s nr tp) (h1 : 1 ≤ nr) (h2 : nr < 16000)
    (hc : at8 src 0 = 0x02) :
    let e := (env.reply s.callN .tnlFree).err
    let s' := (s.asyncRx env nr src).1
    sessionOf s' = (if e = E.ok then ⟨.free, 125, 125, 125, s.tnl.typ, s.tnl.delay⟩ else sessionOf s) ∧
    ∃ ok l, logOf s' = .frame (ctrlFrame nr (closeAnswer (UInt8.ofNat (at8 src 1)) e)) ok :: (l ++ .app .tnlFree :: logOf s) := by
  intro e s'
  have hs : s' = (s.tnlCloseReq env nr src).1 := by
    show (s.asyncRx env nr src).1 = _
    rw [asyncRx_eq ha]
    unfold command
    rw [hc]
    rfl
  have hr : (s.callPort env .tnlFree).2 = e := rfl
  obtain ⟨l, el⟩ := (Quiet.acts env (env.reply s.callN .tnlFree).acts ({ s with callN := s.callN + 1 }.logCall .tnlFree)).logExt
  have el : logOf (s.callPort env .tnlFree).1 = l ++ .app .tnlFree :: logOf s := el
  have et : (s.callPort env .tnlFree).1.tnl = s.tnl := (Quiet.callPort env s .tnlFree).tnl
  unfold tnlCloseReq at hs
  dsimp only at hs
  rw [hr] at hs
  generalize (s.callPort env .tnlFree).1 = t at el et hs
  unfold closeAnswer
  rw [hs]
  by_cases he : e = E.ok
  · rw [if_pos he, if_pos he, if_pos he]
    refine ⟨?_, env.sendOk t.slv.node.sendN, l, ?_⟩
    · show sessionOf (t.tnlFree.ctrlTx env nr _) = _
      rw [← et]
      rfl
    · show logOf (t.tnlFree.ctrlTx env nr _) = _
      rw [ctrlTx_log env t.tnlFree nr _ h1 h2, ← el]
      simp [byteOf, tnlFree, setT]
  · rw [if_neg he, if_neg he, if_neg he]
    refine ⟨?_, env.sendOk t.slv.node.sendN, l, ?_⟩
    · show sessionOf (t.ctrlTx env nr _) = _
      show Session.mk t.tnl.state t.tnl.own t.tnl.prim t.tnl.sec t.tnl.typ t.tnl.delay = _
      rw [et]
      rfl
    · show logOf (t.ctrlTx env nr _) = _
      rw [ctrlTx_log env t nr _ h1 h2, ← el, bytes2]
      simp [byteOf]

/-- the session of module 3 is ended by a request of module 9 -/
example : ∃ s : Stack, run exA (boot Node.exMem exInfo) exOpened = some s ∧ Addressed exA s 5 0 ∧
    sessionOf s = ⟨.active, 5, 3, 5, 0, 20⟩ ∧
    sessionOf (s.asyncRx exA 5 [0x02, 9, 0, 0, 0, 0, 0, 0]).1 = ⟨.free, 125, 125, 125, 0, 20⟩ := by
  have hk : ((run exA (boot Node.exMem exInfo) exOpened).map fun s => decide (Addressed exA s 5 0 ∧
    sessionOf s = ⟨.active, 5, 3, 5, 0, 20⟩ ∧
    sessionOf (s.asyncRx exA 5 [0x02, 9, 0, 0, 0, 0, 0, 0]).1 = ⟨.free, 125, 125, 125, 0, 20⟩)) = some true := by decide +kernel
  rw [Option.map_eq_some_iff] at hk
  obtain ⟨s, a, b⟩ := hk
  exact ⟨s, a, of_decide_eq_true b⟩

/-- **C60**, exact: a reset, whoever sends it.  In an active session the port is told to clear and, if it does, to go on; otherwise
nothing happens.  The session and the bytes not yet sent stay. -/
theorem C60_reset (s : Stack) (nr tp : Nat) (src : List Byte) (ha : Addressed env s nr tp) (hc : at8 src 0 = 0x08) :
    let s' := (s.asyncRx env nr src).1
    s'.tnl = s.tnl ∧ (s.asyncRx env nr src).2 = E.ok ∧
    (s.tnl.state ≠ .active → s' = s) ∧
    (s.tnl.state = .active → ∃ l1, if (env.reply s.callN .tnlClear).err = E.ok
      then ∃ l2, logOf s' = l2 ++ .app .tnlXon :: (l1 ++ .app .tnlClear :: logOf s)
      else logOf s' = l1 ++ .app .tnlClear :: logOf s) := by
  intro s'
  have hs : s.asyncRx env nr src = ((s.tnlReset env).1, E.ok) := by
    rw [asyncRx_eq ha]
    unfold command
    rw [hc]
    rfl
  have hs' : s' = (s.tnlReset env).1 := by show (s.asyncRx env nr src).1 = _; rw [hs]
  rw [hs, hs']
  by_cases h : s.tnl.state = .active
  · have hr : (s.callPort env .tnlClear).2 = (env.reply s.callN .tnlClear).err := rfl
    obtain ⟨l, el⟩ := (Quiet.acts env (env.reply s.callN .tnlClear).acts ({ s with callN := s.callN + 1 }.logCall .tnlClear)).logExt
    have el : logOf (s.callPort env .tnlClear).1 = l ++ .app .tnlClear :: logOf s := el
    have et : (s.callPort env .tnlClear).1.tnl = s.tnl := (Quiet.callPort env s .tnlClear).tnl
    unfold tnlReset
    rw [if_pos h]
    dsimp only
    rw [hr]
    have key : ∀ t : Stack, ∃ l2, logOf (t.callPort env .tnlXon).1 = l2 ++ .app .tnlXon :: logOf t := by
      intro t
      obtain ⟨l2, e2⟩ := (Quiet.acts env (env.reply t.callN .tnlXon).acts ({ t with callN := t.callN + 1 }.logCall .tnlXon)).logExt
      exact ⟨l2, e2⟩
    generalize s.callPort env .tnlClear = r at el et hr ⊢
    have et2 : (r.1.callPort env .tnlXon).1.tnl = s.tnl := (Quiet.callPort env r.1 .tnlXon).tnl.trans et
    obtain ⟨l2, e2⟩ := key r.1
    by_cases he : (env.reply s.callN .tnlClear).err = E.ok
    · rw [if_pos he]
      refine ⟨et2, rfl, fun k => absurd h k, fun _ => ⟨l, ?_⟩⟩
      rw [if_pos he]
      exact ⟨l2, by rw [e2, el]⟩
    · rw [if_neg he]
      refine ⟨et, rfl, fun k => absurd h k, fun _ => ⟨l, ?_⟩⟩
      rw [if_neg he]
      exact el
  · have e : s.tnlReset env = (s, E.tnlWrongState) := by unfold tnlReset; rw [if_neg h]
    rw [e]
    exact ⟨rfl, rfl, fun _ => rfl, fun k => absurd k h⟩

/-! ## C62 -/

/-- **C62**, exact: whether a partly filled object is handed over depends only on the absolute tick and on the number of bytes, not on
when they were written. -/
theorem C62_exact {mem : Nat → List Byte} {info : XInfo} {is : List SIn} {s : Stack}
    (h : run env (boot mem info) is = some s) (now : Nat) (hs : s.tnl.state = .active)
    (hl : 0 < s.tnl.tmp.length ∧ s.tnl.tmp.length < 8) :
    let s' := (s.processTx env now).1
    if (s.tnl.tmp.length + env.ms2t 50) % 2 ^ 32 < now then
      if (pendingOf s.q).length < 4 then
        s'.tnl = { s.tnl with tmp := [] } ∧
        pendingOf s.q ++ [⟨asyncDataTxId s.tnl.own, s.tnl.tmp.length, s.tnl.tmp⟩] = okFrames (newLog s s') ++ pendingOf s'.q
      else s'.tnl = s.tnl ∧ pendingOf s.q = okFrames (newLog s s') ++ pendingOf s'.q
    else s' = s := by
  intro s'
  obtain ⟨o, -, k, -, -⟩ := books_boot h
  have hlk : s.tnl.lock = 0 := by
    rcases k.buf with e | e
    · exact e.1
    · omega
  have hu : ∀ n, u32 n = n % 2 ^ 32 := fun _ => rfl
  have hs' : s' = (if (s.tnl.tmp.length + env.ms2t 50) % 2 ^ 32 < now then
      (if (s.enqueue env s.tnl.own s.tnl.tmp.length s.tnl.tmp).2 = E.ok then
        (s.enqueue env s.tnl.own s.tnl.tmp.length s.tnl.tmp).1.setT fun t => { t with tmp := [] }
       else (s.enqueue env s.tnl.own s.tnl.tmp.length s.tnl.tmp).1) else s) := by
    show (s.processTx env now).1 = _
    unfold processTx
    rw [if_neg (not_not_intro hlk), if_pos hs, hu]
    by_cases hn : (s.tnl.tmp.length + env.ms2t 50) % 2 ^ 32 < now
    · rw [if_pos ⟨hl.1, hn⟩, if_pos hn]
      dsimp only
      split <;> rfl
    · rw [if_neg fun e => hn e.2, if_neg hn]
  rw [hs']
  by_cases hn : (s.tnl.tmp.length + env.ms2t 50) % 2 ^ 32 < now
  · rw [if_pos hn, if_pos hn]
    obtain ⟨-, -, e, -⟩ := enqueue_balance env s k.ring s.tnl.own s.tnl.tmp.length s.tnl.tmp
    obtain ⟨-, b, c⟩ := handOver env s k.ring (Nat.le_of_lt hl.2)
    rw [pendingOf_length]
    by_cases hq : s.q.state < 4
    · have ek := e.2 ⟨hq, Nat.le_of_lt hl.2⟩
      rw [if_pos ek] at c
      rw [if_pos ek, if_pos hq]
      refine ⟨?_, c⟩
      show ({ (s.enqueue env s.tnl.own s.tnl.tmp.length s.tnl.tmp).1.tnl with tmp := [] } : Tunnel) = _
      rw [b]
    · have ek : ¬ (s.enqueue env s.tnl.own s.tnl.tmp.length s.tnl.tmp).2 = E.ok := fun x => hq (e.1 x).1
      rw [if_neg ek] at c
      rw [if_neg ek, if_neg hq]
      exact ⟨b, by rw [← c, List.append_nil]⟩
  · rw [if_neg hn, if_neg hn]

/-- **C62**, exact: the bytes written at tick `t` rest for 50 ms only if the tick counter has not gone beyond their number - that is in
the first ticks after the start of the counter; later they are handed over at the next processing. -/
theorem C62_rest_iff {mem : Nat → List Byte} {info : XInfo} {is : List SIn} {s : Stack}
    (h : run env (boot mem info) is = some s) (t : Nat) (hs : s.tnl.state = .active)
    (hl : 0 < s.tnl.tmp.length ∧ s.tnl.tmp.length < 8) (hq : (pendingOf s.q).length < 4)
    (hw : s.tnl.tmp.length + env.ms2t 50 < 2 ^ 32) :
    (∀ now, t ≤ now → now ≤ t + env.ms2t 50 → (s.processTx env now).1.tnl.tmp = s.tnl.tmp) ↔ t ≤ s.tnl.tmp.length := by
  constructor
  · intro k
    apply Classical.byContradiction
    intro ht
    have e := k (t + env.ms2t 50) (by omega) (by omega)
    have x := C62_exact h (t + env.ms2t 50) hs hl
    dsimp only at x
    rw [if_pos (by omega), if_pos hq] at x
    rw [x.1] at e
    have : s.tnl.tmp.length = 0 := by rw [← e]; rfl
    omega
  · intro ht now h1 h2
    have x := C62_exact h now hs hl
    dsimp only at x
    rw [if_neg (by omega)] at x
    rw [x]

/-- two bytes written at tick 1000: handed over at tick 1000 -/
example : ((run exA (boot Node.exMem exInfo) (exOpened ++ [.putc 1, .putc 2])).map fun s =>
      (s.tnl.tmp, s.tnl.state, (s.processTx exA 1000).1.tnl.tmp, (s.processTx exA (s.tnl.tmp.length + exA.ms2t 50)).1.tnl.tmp)) =
    some ([1, 2], .active, [], [1, 2]) := by decide +kernel

end Stack
end LiCan
